import Verif.Model.CrefApi
import Verif.Proofs.CrefMult

/-!
# The 3-bit window of the C reference implementation
-/

namespace Ristretto.Proofs.Cref
open Model Model.Cref
set_option autoImplicit false

theorem sign3_step : ∀ x : Int8, 0 ≤ x.toInt → x.toInt ≤ 9 →
    0 ≤ (x >>> 3).toInt ∧ 0 ≤ ((x &&& (7 : Int8)) >>> 2).toInt ∧
    (x >>> 3).toInt + ((x &&& (7 : Int8)) >>> 2).toInt ≤ 1 ∧
    ((x &&& (7 : Int8)) - (((x &&& (7 : Int8)) >>> 2) <<< 3)).toInt +
      8 * ((x >>> 3).toInt + ((x &&& (7 : Int8)) >>> 2).toInt) = x.toInt ∧
    -4 ≤ ((x &&& (7 : Int8)) - (((x &&& (7 : Int8)) >>> 2) <<< 3)).toInt ∧
    ((x &&& (7 : Int8)) - (((x &&& (7 : Int8)) >>> 2) <<< 3)).toInt ≤ 3 :=
  int8_forall (by decide +kernel)

/-- Recoding preserves the value, and all digits are in `[-4, 3]` if the top one is small. -/
theorem window3Sign_spec (rest : List Int8) : ∀ (carry a : Int8), 0 ≤ carry.toInt →
    0 ≤ a.toInt → a.toInt + carry.toInt ≤ 8 → (∀ w ∈ rest, 0 ≤ w.toInt ∧ w.toInt ≤ 7) →
    (∀ w ∈ (a :: rest).getLast?, w.toInt + (if rest = [] then carry.toInt else 1) ≤ 3) →
    digitsVal 8 (window3Sign carry a rest) = carry.toInt + digitsVal 8 (a :: rest) ∧
    (∀ w ∈ window3Sign carry a rest, -4 ≤ w.toInt ∧ w.toInt ≤ 3) ∧
    (window3Sign carry a rest).length = rest.length + 1 := by
  induction rest with
  | nil =>
    intro carry a hc ha hac _ hl
    simp at hl
    have e := int8_add (a := a) (b := carry) (by omega) (by omega)
    simp only [window3Sign, digitsVal, List.mem_singleton, forall_eq, e]
    refine ⟨by ring, by omega, rfl⟩
  | cons b rest ih =>
    intro carry a hc ha hac hr hl
    have e := int8_add (a := a) (b := carry) (by omega) (by omega)
    have hs := sign3_step (a + carry) (by omega) (by omega)
    simp only [window3Sign]
    generalize a + carry = x at *
    obtain ⟨h1, h2, h3, h4, h5, h6⟩ := hs
    obtain ⟨hb1, hb2⟩ := hr b (by simp)
    have eb := int8_add (a := b) (b := x >>> 3) (by omega) (by omega)
    have hrec := ih ((x &&& 7) >>> 2) (b + (x >>> 3)) h2 (by omega) (by omega)
      (fun w hw => hr w (by simp [hw])) (by
        intro w hw
        cases rest with
        | nil =>
          simp at hw
          subst hw
          have := hl b (by simp)
          rw [if_neg (by simp)] at this
          rw [if_pos rfl, eb]
          omega
        | cons c rest =>
          have := hl w (by simpa using hw)
          simpa using this)
    obtain ⟨r1, r2, r3⟩ := hrec
    refine ⟨?_, ?_, by simp [r3]⟩
    · simp only [digitsVal] at r1 ⊢
      rw [r1, eb]
      linear_combination h4 + e
    · intro w hw
      rcases List.mem_cons.1 hw with h | h
      · subst h; omega
      · exact r2 w h

theorem d_and : ∀ a : UInt8, (Cref.i8 (a.toUInt32 &&& 7)).toInt = (a.toNat % 8 : ℕ) := uint8_forall (by decide +kernel)
theorem d_shr1 : ∀ a : UInt8, (Cref.i8 ((a.toUInt32 >>> 1) &&& 7)).toInt = (a.toNat / 2 % 8 : ℕ) := uint8_forall (by decide +kernel)
theorem d_shr2 : ∀ a : UInt8, (Cref.i8 ((a.toUInt32 >>> 2) &&& 7)).toInt = (a.toNat / 4 % 8 : ℕ) := uint8_forall (by decide +kernel)
theorem d_shr3 : ∀ a : UInt8, (Cref.i8 ((a.toUInt32 >>> 3) &&& 7)).toInt = (a.toNat / 8 % 8 : ℕ) := uint8_forall (by decide +kernel)
theorem d_shr4 : ∀ a : UInt8, (Cref.i8 ((a.toUInt32 >>> 4) &&& 7)).toInt = (a.toNat / 16 % 8 : ℕ) := uint8_forall (by decide +kernel)
theorem d_shr5 : ∀ a : UInt8, (Cref.i8 ((a.toUInt32 >>> 5) &&& 7)).toInt = (a.toNat / 32 : ℕ) := uint8_forall (by decide +kernel)
theorem x_shr6 : ∀ a : UInt8, Cref.i8 ((a.toUInt32 >>> 6) &&& 7) = Int8.ofNat (a.toNat / 64) := uint8_forall (by decide +kernel)
theorem x_shr7 : ∀ a : UInt8, Cref.i8 ((a.toUInt32 >>> 7) &&& 7) = Int8.ofNat (a.toNat / 128) := uint8_forall (by decide +kernel)
theorem x_shl2 : ∀ a : UInt8, Cref.i8 ((a.toUInt32 <<< 2) &&& 7) = Int8.ofNat (4 * (a.toNat % 2)) := uint8_forall (by decide +kernel)
theorem x_shl1 : ∀ a : UInt8, Cref.i8 ((a.toUInt32 <<< 1) &&& 7) = Int8.ofNat (2 * (a.toNat % 4)) := uint8_forall (by decide +kernel)

theorem d_xor62 (a b : UInt8) : (Cref.i8 ((a.toUInt32 >>> 6) &&& 7) ^^^ Cref.i8 ((b.toUInt32 <<< 2) &&& 7)).toInt =
    (a.toNat / 64 : ℕ) + (4 * (b.toNat % 2) : ℕ) := by
  have ha := a.toNat_lt
  rw [x_shr6, x_shl2]
  have key : ∀ x : Fin 4, ∀ y : Fin 2, (Int8.ofNat x.val ^^^ Int8.ofNat (4 * y.val)).toInt = (x.val : ℕ) + (4 * y.val : ℕ) := by
    decide +kernel
  exact key ⟨a.toNat / 64, by omega⟩ ⟨b.toNat % 2, by omega⟩

theorem d_xor71 (a b : UInt8) : (Cref.i8 ((a.toUInt32 >>> 7) &&& 7) ^^^ Cref.i8 ((b.toUInt32 <<< 1) &&& 7)).toInt =
    (a.toNat / 128 : ℕ) + (2 * (b.toNat % 4) : ℕ) := by
  have ha := a.toNat_lt
  rw [x_shr7, x_shl1]
  have key : ∀ x : Fin 2, ∀ y : Fin 4, (Int8.ofNat x.val ^^^ Int8.ofNat (2 * y.val)).toInt = (x.val : ℕ) + (2 * y.val : ℕ) := by
    decide +kernel
  exact key ⟨a.toNat / 128, by omega⟩ ⟨b.toNat % 4, by omega⟩

theorem chunk3_val (a b c : UInt8) : digitsVal 8 (window3Chunk a.toUInt32 b.toUInt32 c.toUInt32) =
    (a.toNat + 256 * b.toNat + 256 ^ 2 * c.toNat : ℕ) := by
  have := a.toNat_lt
  have := b.toNat_lt
  have := c.toNat_lt
  simp only [window3Chunk, digitsVal, d_shr1, d_shr2, d_shr3, d_shr4, d_shr5, d_xor62, d_xor71]
  rw [d_and]
  generalize a.toNat = a at *
  generalize b.toNat = b at *
  generalize c.toNat = c at *
  omega

theorem chunk3_range (a b c : UInt8) : ∀ w ∈ window3Chunk a.toUInt32 b.toUInt32 c.toUInt32,
    0 ≤ w.toInt ∧ w.toInt ≤ 7 := by
  have := a.toNat_lt
  have := b.toNat_lt
  have := c.toNat_lt
  intro w hw
  simp only [window3Chunk, List.mem_cons, List.not_mem_nil, or_false] at hw
  rcases hw with h | h | h | h | h | h | h | h <;> rw [h] <;>
    first
    | rw [d_shr1]; omega
    | rw [d_shr2]; omega
    | rw [d_shr3]; omega
    | rw [d_shr4]; omega
    | rw [d_shr5]; omega
    | rw [d_xor62]; omega
    | rw [d_xor71]; omega
    | rw [d_and]; omega

theorem chunk3_length (a b c : UInt32) : (window3Chunk a b c).length = 8 := rfl

theorem ofBytes_get (b : Bytes 32) (i : ℕ) (h : i < 32) : (ofBytes b)[i] = b[i].toUInt32 := by
  unfold ofBytes; simp

/-- The digits of the last two bytes. -/
def tail3 (a b : UInt8) : List Int8 :=
  [ Cref.i8 (a.toUInt32 &&& 7), Cref.i8 ((a.toUInt32 >>> 3) &&& 7),
    Cref.i8 ((a.toUInt32 >>> 6) &&& 7) ^^^ Cref.i8 ((b.toUInt32 <<< 2) &&& 7),
    Cref.i8 ((b.toUInt32 >>> 1) &&& 7), Cref.i8 ((b.toUInt32 >>> 4) &&& 7) ]

theorem tail3_val (a b : UInt8) (hb : b.toNat < 128) : digitsVal 8 (tail3 a b) = (a.toNat + 256 * b.toNat : ℕ) := by
  have := a.toNat_lt
  simp only [tail3, digitsVal, d_shr1, d_shr3, d_shr4, d_xor62]
  rw [d_and]
  generalize a.toNat = a at *
  generalize b.toNat = b at *
  omega

theorem tail3_range (a b : UInt8) : ∀ w ∈ tail3 a b, 0 ≤ w.toInt ∧ w.toInt ≤ 7 := by
  have := a.toNat_lt
  have := b.toNat_lt
  intro w hw
  simp only [tail3, List.mem_cons, List.not_mem_nil, or_false] at hw
  rcases hw with h | h | h | h | h <;> rw [h] <;>
    first
    | rw [d_shr1]; omega
    | rw [d_shr3]; omega
    | rw [d_shr4]; omega
    | rw [d_xor62]; omega
    | rw [d_and]; omega

theorem window3Raw_eq (s : Bytes 32) : window3Raw (ofBytes s) =
    window3Chunk s[0].toUInt32 s[1].toUInt32 s[2].toUInt32 ++
    window3Chunk s[3].toUInt32 s[4].toUInt32 s[5].toUInt32 ++
    window3Chunk s[6].toUInt32 s[7].toUInt32 s[8].toUInt32 ++
    window3Chunk s[9].toUInt32 s[10].toUInt32 s[11].toUInt32 ++
    window3Chunk s[12].toUInt32 s[13].toUInt32 s[14].toUInt32 ++
    window3Chunk s[15].toUInt32 s[16].toUInt32 s[17].toUInt32 ++
    window3Chunk s[18].toUInt32 s[19].toUInt32 s[20].toUInt32 ++
    window3Chunk s[21].toUInt32 s[22].toUInt32 s[23].toUInt32 ++
    window3Chunk s[24].toUInt32 s[25].toUInt32 s[26].toUInt32 ++
    window3Chunk s[27].toUInt32 s[28].toUInt32 s[29].toUInt32 ++ tail3 s[30] s[31] := by
  unfold window3Raw tail3
  simp only [ofBytes_get]

theorem window3Raw_val (s : Bytes 32) (h31 : s[31].toNat < 128) : digitsVal 8 (window3Raw (ofBytes s)) = leVal s := by
  rw [leVal_32, window3Raw_eq]
  simp only [digitsVal_append, List.length_append, chunk3_length, chunk3_val, tail3_val _ _ h31]
  push_cast
  ring

theorem window3Raw_range (s : Bytes 32) : ∀ w ∈ window3Raw (ofBytes s), 0 ≤ w.toInt ∧ w.toInt ≤ 7 := by
  intro w hw
  rw [window3Raw_eq] at hw
  simp only [List.mem_append] at hw
  rcases hw with (((((((((h | h) | h) | h) | h) | h) | h) | h) | h) | h) | h
  iterate 10 exact chunk3_range _ _ _ w h
  exact tail3_range _ _ w h

/-- The 3-bit signed window of a scalar below `3 * 2^252`. -/
theorem window3_spec (s : Bytes 32) (h : leVal s < 3 * 2 ^ 252) :
    digitsVal 8 (window3 (ofBytes s)) = leVal s ∧ (window3 (ofBytes s)).length = 85 ∧
    ∀ w ∈ window3 (ofBytes s), -4 ≤ w.toInt ∧ w.toInt ≤ 3 := by
  have h31 : s[31].toNat < 48 := top_lt (by simpa using h)
  have hv := window3Raw_val s (by omega)
  have hr := window3Raw_range s
  have hlen : (window3Raw (ofBytes s)).length = 85 := rfl
  have hlast : ∀ w ∈ (window3Raw (ofBytes s)).getLast?, w.toInt ≤ 2 := by
    intro w hw
    rw [window3Raw_eq, List.getLast?_append] at hw
    have e : (tail3 s[30] s[31]).getLast? = some (Cref.i8 ((s[31].toUInt32 >>> 4) &&& 7)) := rfl
    rw [e] at hw
    simp only [Option.some_or, Option.mem_def, Option.some.injEq] at hw
    rw [← hw, d_shr4]
    omega
  unfold window3
  generalize hW : window3Raw (ofBytes s) = W at *
  cases W with
  | nil => simp at hlen
  | cons a rest =>
    have hne : rest ≠ [] := by
      rintro rfl
      simp at hlen
    obtain ⟨ha, ha'⟩ := hr a (by simp)
    have hspec := window3Sign_spec rest 0 a (by decide) ha (by simp; omega)
      (fun w hw => hr w (by simp [hw])) (by
        intro w hw
        rw [if_neg hne]
        have := hlast w hw
        omega)
    refine ⟨?_, ?_, hspec.2.1⟩
    · show digitsVal 8 (window3Sign 0 a rest) = _
      rw [hspec.1, hv]
      simp
    · show (window3Sign 0 a rest).length = _
      rw [hspec.2.2]
      simpa using hlen

end Ristretto.Proofs.Cref
