import Verif.Model.Curve
import Verif.Proofs.Bytes
import Verif.Proofs.FieldFlags

/-!
# Recoding a scalar into signed digits
-/

namespace Ristretto.Proofs
open Model
set_option autoImplicit false

/-- A statement about all `int8` values follows from its 256 instances. -/
theorem int8_forall {P : Int8 → Prop} (h : ∀ k : Fin 256, P ⟨⟨⟨k⟩⟩⟩) (w : Int8) : P w := by
  obtain ⟨⟨⟨k⟩⟩⟩ := w
  exact h k

theorem uint8_forall {P : UInt8 → Prop} (h : ∀ k : Fin 256, P ⟨⟨k⟩⟩) (w : UInt8) : P w := by
  obtain ⟨⟨k⟩⟩ := w
  exact h k

theorem int8_add {a b : Int8} (h1 : -128 ≤ a.toInt + b.toInt) (h2 : a.toInt + b.toInt < 128) :
    (a + b).toInt = a.toInt + b.toInt := by
  rw [Int8.toInt_add]
  apply Int.bmod_eq_of_le <;> simp <;> omega

/-- The number a digit list stands for. -/
def digitsVal (B : ℤ) : List Int8 → ℤ
  | [] => 0
  | w :: ws => w.toInt + B * digitsVal B ws

theorem digitsVal_append (B : ℤ) (a b : List Int8) :
    digitsVal B (a ++ b) = digitsVal B a + B ^ a.length * digitsVal B b := by
  induction a with
  | nil => simp [digitsVal]
  | cons w ws ih => simp only [List.cons_append, digitsVal, ih, List.length_cons, pow_succ]; ring

theorem sign5_step : ∀ x : Int8, 0 ≤ x.toInt → x.toInt ≤ 33 →
    0 ≤ (x >>> 5).toInt ∧ 0 ≤ ((x &&& (31 : Int8)) >>> 4).toInt ∧
    (x >>> 5).toInt + ((x &&& (31 : Int8)) >>> 4).toInt ≤ 1 ∧
    ((x &&& (31 : Int8)) - (((x &&& (31 : Int8)) >>> 4) <<< 5)).toInt +
      32 * ((x >>> 5).toInt + ((x &&& (31 : Int8)) >>> 4).toInt) = x.toInt ∧
    -16 ≤ ((x &&& (31 : Int8)) - (((x &&& (31 : Int8)) >>> 4) <<< 5)).toInt ∧
    ((x &&& (31 : Int8)) - (((x &&& (31 : Int8)) >>> 4) <<< 5)).toInt ≤ 15 :=
  int8_forall (by decide +kernel)

/-- Recoding preserves the value, and all digits are in `[-16, 16]` if the top one is small. -/
theorem window5Sign_spec (rest : List Int8) : ∀ (carry a : Int8), 0 ≤ carry.toInt →
    0 ≤ a.toInt → a.toInt + carry.toInt ≤ 32 → (∀ w ∈ rest, 0 ≤ w.toInt ∧ w.toInt ≤ 31) →
    (∀ w ∈ (a :: rest).getLast?, w.toInt + (if rest = [] then carry.toInt else 1) ≤ 16) →
    digitsVal 32 (window5Sign carry a rest) = carry.toInt + digitsVal 32 (a :: rest) ∧
    (∀ w ∈ window5Sign carry a rest, -16 ≤ w.toInt ∧ w.toInt ≤ 16) := by
  induction rest with
  | nil =>
    intro carry a hc ha hac _ hl
    simp at hl
    have e := int8_add (a := a) (b := carry) (by omega) (by omega)
    simp only [window5Sign, digitsVal, List.mem_singleton, forall_eq, e]
    constructor
    · ring
    · omega
  | cons b rest ih =>
    intro carry a hc ha hac hr hl
    have e := int8_add (a := a) (b := carry) (by omega) (by omega)
    have hs := sign5_step (a + carry) (by omega) (by omega)
    simp only [window5Sign]
    generalize a + carry = x at *
    obtain ⟨h1, h2, h3, h4, h5, h6⟩ := hs
    obtain ⟨hb1, hb2⟩ := hr b (by simp)
    have eb := int8_add (a := b) (b := x >>> 5) (by omega) (by omega)
    have hrec := ih ((x &&& 31) >>> 4) (b + (x >>> 5)) h2 (by omega) (by omega)
      (fun w hw => hr w (by simp [hw])) (by
        intro w hw
        cases rest with
        | nil =>
          simp at hw
          subst hw
          have := hl b (by simp)
          rw [if_neg (by simp)] at this
          rw [if_pos rfl, eb]
          omega
        | cons c rest =>
          have := hl w (by simpa using hw)
          simpa using this)
    obtain ⟨r1, r2⟩ := hrec
    constructor
    · simp only [digitsVal] at r1 ⊢
      rw [r1, eb]
      linear_combination h4 + e
    · intro w hw
      rcases List.mem_cons.1 hw with h | h
      · subst h; omega
      · exact r2 w h

theorem xor_small (k : ℕ) (hk : k ≤ 4) (a b : UInt8) (ha : a.toNat < 2 ^ k) (hb : b.toNat < 32)
    (hb' : b.toNat % 2 ^ k = 0) : (i8 a ^^^ i8 b).toInt = a.toNat + b.toNat := by
  have key : ∀ k : Fin 5, ∀ a : Fin 16, a.val < 2 ^ k.val → ∀ b : Fin 32, b.val % 2 ^ k.val = 0 →
      (i8 (UInt8.ofNat a) ^^^ i8 (UInt8.ofNat b)).toInt = (a.val : ℤ) + b.val := by decide +kernel
  have ha16 : a.toNat < 16 := lt_of_lt_of_le ha (by
    calc 2 ^ k ≤ 2 ^ 4 := Nat.pow_le_pow_right (by norm_num) hk
      _ = 16 := by norm_num)
  have := key ⟨k, by omega⟩ ⟨a.toNat, ha16⟩ ha ⟨b.toNat, hb⟩ hb'
  simpa using this

theorem i8_and31 : ∀ a : UInt8, (i8 (a &&& 31)).toInt = (a.toNat % 32 : ℕ) := uint8_forall (by decide +kernel)
theorem i8_shr2 : ∀ a : UInt8, (i8 ((a >>> 2) &&& 31)).toInt = (a.toNat / 4 % 32 : ℕ) := uint8_forall (by decide +kernel)
theorem i8_shr1 : ∀ a : UInt8, (i8 ((a >>> 1) &&& 31)).toInt = (a.toNat / 2 % 32 : ℕ) := uint8_forall (by decide +kernel)
theorem i8_shr3 : ∀ a : UInt8, (i8 ((a >>> 3) &&& 31)).toInt = (a.toNat / 8 % 32 : ℕ) := uint8_forall (by decide +kernel)
theorem u8_shr5 : ∀ a : UInt8, ((a >>> 5) &&& 31).toNat = a.toNat / 32 := uint8_forall (by decide +kernel)
theorem u8_shr7 : ∀ a : UInt8, ((a >>> 7) &&& 31).toNat = a.toNat / 128 := uint8_forall (by decide +kernel)
theorem u8_shr4 : ∀ a : UInt8, ((a >>> 4) &&& 31).toNat = a.toNat / 16 := uint8_forall (by decide +kernel)
theorem u8_shr6 : ∀ a : UInt8, ((a >>> 6) &&& 31).toNat = a.toNat / 64 := uint8_forall (by decide +kernel)
theorem u8_shl3 : ∀ a : UInt8, ((a <<< 3) &&& 31).toNat = 8 * (a.toNat % 4) := uint8_forall (by decide +kernel)
theorem u8_shl1 : ∀ a : UInt8, ((a <<< 1) &&& 31).toNat = 2 * (a.toNat % 16) := uint8_forall (by decide +kernel)
theorem u8_shl4 : ∀ a : UInt8, ((a <<< 4) &&& 31).toNat = 16 * (a.toNat % 2) := uint8_forall (by decide +kernel)
theorem u8_shl2 : ∀ a : UInt8, ((a <<< 2) &&& 31).toNat = 4 * (a.toNat % 8) := uint8_forall (by decide +kernel)

theorem xor53 (a b : UInt8) : (i8 ((a >>> 5) &&& 31) ^^^ i8 ((b <<< 3) &&& 31)).toInt =
    (a.toNat / 32 : ℕ) + (8 * (b.toNat % 4) : ℕ) := by
  have := a.toNat_lt
  rw [xor_small 3 (by norm_num), u8_shr5, u8_shl3]
  · rw [u8_shr5]; norm_num; omega
  · rw [u8_shl3]; omega
  · rw [u8_shl3]; norm_num
theorem xor71 (a b : UInt8) : (i8 ((a >>> 7) &&& 31) ^^^ i8 ((b <<< 1) &&& 31)).toInt =
    (a.toNat / 128 : ℕ) + (2 * (b.toNat % 16) : ℕ) := by
  have := a.toNat_lt
  rw [xor_small 1 (by norm_num), u8_shr7, u8_shl1]
  · rw [u8_shr7]; norm_num; omega
  · rw [u8_shl1]; omega
  · rw [u8_shl1]; norm_num
theorem xor44 (a b : UInt8) : (i8 ((a >>> 4) &&& 31) ^^^ i8 ((b <<< 4) &&& 31)).toInt =
    (a.toNat / 16 : ℕ) + (16 * (b.toNat % 2) : ℕ) := by
  have := a.toNat_lt
  rw [xor_small 4 (by norm_num), u8_shr4, u8_shl4]
  · rw [u8_shr4]; norm_num; omega
  · rw [u8_shl4]; omega
  · rw [u8_shl4]; norm_num
theorem xor62 (a b : UInt8) : (i8 ((a >>> 6) &&& 31) ^^^ i8 ((b <<< 2) &&& 31)).toInt =
    (a.toNat / 64 : ℕ) + (4 * (b.toNat % 8) : ℕ) := by
  have := a.toNat_lt
  rw [xor_small 2 (by norm_num), u8_shr6, u8_shl2]
  · rw [u8_shr6]; norm_num; omega
  · rw [u8_shl2]; omega
  · rw [u8_shl2]; norm_num

theorem chunk5_val (a b c e f : UInt8) : digitsVal 32 (window5Chunk a b c e f) =
    (a.toNat + 256 * b.toNat + 256 ^ 2 * c.toNat + 256 ^ 3 * e.toNat + 256 ^ 4 * f.toNat : ℕ) := by
  have := a.toNat_lt
  have := b.toNat_lt
  have := c.toNat_lt
  have := e.toNat_lt
  have := f.toNat_lt
  simp only [window5Chunk, digitsVal, i8_shr1, i8_shr2, i8_shr3, xor53, xor71, xor44, xor62]
  rw [i8_and31]
  generalize a.toNat = a at *
  generalize b.toNat = b at *
  generalize c.toNat = c at *
  generalize e.toNat = e at *
  generalize f.toNat = f at *
  omega

theorem chunk5_range (a b c e f : UInt8) : ∀ w ∈ window5Chunk a b c e f, 0 ≤ w.toInt ∧ w.toInt ≤ 31 := by
  have := a.toNat_lt
  have := b.toNat_lt
  have := c.toNat_lt
  have := e.toNat_lt
  have := f.toNat_lt
  intro w hw
  simp only [window5Chunk, List.mem_cons, List.not_mem_nil, or_false] at hw
  rcases hw with h | h | h | h | h | h | h | h <;> rw [h] <;>
    first
    | rw [i8_shr1]; omega
    | rw [i8_shr2]; omega
    | rw [i8_shr3]; omega
    | rw [xor53]; omega
    | rw [xor71]; omega
    | rw [xor44]; omega
    | rw [xor62]; omega
    | rw [i8_and31]; omega

theorem chunk5_length (a b c e f : UInt8) : (window5Chunk a b c e f).length = 8 := rfl

theorem window5Raw_val (s : Bytes 32) (h : leVal s < 2 ^ 255) : digitsVal 32 (window5Raw s) = leVal s := by
  have h0 := s[31].toNat_lt
  have h1 := s[30].toNat_lt
  rw [leVal_32] at h ⊢
  have h31 : s[31].toNat < 128 := by
    by_contra hc
    have : 2 ^ 255 ≤ s[31].toNat * 256 ^ 31 := by
      calc 2 ^ 255 = 128 * 256 ^ 31 := by norm_num
        _ ≤ _ := Nat.mul_le_mul_right _ (by omega)
    omega
  have hl : digitsVal 32 [ i8 (s[30] &&& 31), i8 ((s[30] >>> 5) &&& 31) ^^^ i8 ((s[31] <<< 3) &&& 31),
      i8 ((s[31] >>> 2) &&& 31) ] = (s[30].toNat + 256 * s[31].toNat : ℕ) := by
    simp only [digitsVal, i8_shr2, xor53]
    rw [i8_and31]
    generalize s[30].toNat = a at *
    generalize s[31].toNat = b at *
    omega
  unfold window5Raw
  simp only [digitsVal_append, List.length_append, chunk5_length, chunk5_val, hl]
  push_cast
  ring

theorem window5Raw_range (s : Bytes 32) : ∀ w ∈ window5Raw s, 0 ≤ w.toInt ∧ w.toInt ≤ 31 := by
  have h0 := s[31].toNat_lt
  have h1 := s[30].toNat_lt
  intro w hw
  unfold window5Raw at hw
  simp only [List.mem_append] at hw
  rcases hw with (((((h | h) | h) | h) | h) | h) | h
  · exact chunk5_range _ _ _ _ _ w h
  · exact chunk5_range _ _ _ _ _ w h
  · exact chunk5_range _ _ _ _ _ w h
  · exact chunk5_range _ _ _ _ _ w h
  · exact chunk5_range _ _ _ _ _ w h
  · exact chunk5_range _ _ _ _ _ w h
  · simp only [List.mem_cons, List.not_mem_nil, or_false] at h
    rcases h with h | h | h <;> rw [h] <;>
    first
    | rw [i8_shr2]; omega
    | rw [xor53]; omega
    | rw [i8_and31]; omega

theorem top_lt {s : Bytes 32} {k : ℕ} (h : leVal s < k * 256 ^ 31) : s[31].toNat < k := by
  rw [leVal_32] at h
  by_contra hc
  have : k * 256 ^ 31 ≤ s[31].toNat * 256 ^ 31 := Nat.mul_le_mul_right _ (by omega)
  omega

/-- The 5-bit signed window of a scalar below 2^254. -/
theorem computeScalarWindow5_spec (s : Bytes 32) (h : leVal s < 2 ^ 254) :
    digitsVal 32 (computeScalarWindow5 s) = leVal s ∧
    ∀ w ∈ computeScalarWindow5 s, -16 ≤ w.toInt ∧ w.toInt ≤ 16 := by
  have hv := window5Raw_val s (lt_trans h (by norm_num))
  have hr := window5Raw_range s
  have h31 : s[31].toNat < 64 := top_lt (by simpa using h)
  have hlast : ∀ w ∈ (window5Raw s).getLast?, w.toInt ≤ 15 := by
    intro w hw
    unfold window5Raw at hw
    rw [List.getLast?_append] at hw
    simp at hw
    rw [← hw]
    have : ((s[31] >>> 2).toInt8 &&& 31).toInt = _ := i8_shr2 s[31]
    rw [this]
    omega
  unfold computeScalarWindow5
  generalize hW : window5Raw s = W at *
  cases W with
  | nil => exact absurd hW (by simp [window5Raw, window5Chunk])
  | cons a rest =>
    have hne : rest ≠ [] := by
      rintro rfl
      have := congrArg List.length hW
      simp [window5Raw, window5Chunk] at this
    obtain ⟨ha, ha'⟩ := hr a (by simp)
    have hspec := window5Sign_spec rest 0 a (by decide) ha (by simp; omega)
      (fun w hw => hr w (by simp [hw])) (by
        intro w hw
        rw [if_neg hne]
        have := hlast w hw
        omega)
    refine ⟨?_, hspec.2⟩
    rw [hspec.1, hv]
    simp

/-! ## 4-bit window -/

theorem sign4_step : ∀ x : Int8, 0 ≤ x.toInt → x.toInt ≤ 16 →
    0 ≤ ((x + 8) >>> 4).toInt ∧ ((x + 8) >>> 4).toInt ≤ 1 ∧
    (x - (((x + 8) >>> 4) <<< 4)).toInt + 16 * ((x + 8) >>> 4).toInt = x.toInt ∧
    -8 ≤ (x - (((x + 8) >>> 4) <<< 4)).toInt ∧ (x - (((x + 8) >>> 4) <<< 4)).toInt ≤ 7 :=
  int8_forall (by decide +kernel)

theorem window4Sign_spec (rest : List Int8) : ∀ (carry a : Int8), 0 ≤ carry.toInt → carry.toInt ≤ 1 →
    0 ≤ a.toInt → a.toInt ≤ 15 → (∀ w ∈ rest, 0 ≤ w.toInt ∧ w.toInt ≤ 15) →
    (∀ w ∈ (a :: rest).getLast?, w.toInt ≤ 7) →
    digitsVal 16 (window4Sign carry a rest) = carry.toInt + digitsVal 16 (a :: rest) ∧
    (∀ w ∈ window4Sign carry a rest, -8 ≤ w.toInt ∧ w.toInt ≤ 8) ∧
    (window4Sign carry a rest).length = rest.length + 1 := by
  induction rest with
  | nil =>
    intro carry a hc hc1 ha hac _ hl
    simp at hl
    have e := int8_add (a := a) (b := carry) (by omega) (by omega)
    simp only [window4Sign, digitsVal, List.mem_singleton, forall_eq, e]
    refine ⟨by ring, by omega, rfl⟩
  | cons b rest ih =>
    intro carry a hc hc1 ha hac hr hl
    have e := int8_add (a := a) (b := carry) (by omega) (by omega)
    have hs := sign4_step (a + carry) (by omega) (by omega)
    simp only [window4Sign]
    generalize a + carry = x at *
    obtain ⟨h1, h2, h3, h4, h5⟩ := hs
    obtain ⟨hb1, hb2⟩ := hr b (by simp)
    have hrec := ih ((x + 8) >>> 4) b h1 h2 hb1 hb2
      (fun w hw => hr w (by simp [hw])) (by
        intro w hw
        exact hl w (by simpa using hw))
    obtain ⟨r1, r2, r3⟩ := hrec
    refine ⟨?_, ?_, ?_⟩
    · simp only [digitsVal] at r1 ⊢
      rw [r1]
      linear_combination h3 + e
    · intro w hw
      rcases List.mem_cons.1 hw with h | h
      · subst h; omega
      · exact r2 w h
    · simp [r3]

theorem i8_and15 : ∀ a : UInt8, (i8 (a &&& 15)).toInt = (a.toNat % 16 : ℕ) := uint8_forall (by decide +kernel)
theorem i8_shr4 : ∀ a : UInt8, (i8 ((a >>> 4) &&& 15)).toInt = (a.toNat / 16 : ℕ) := uint8_forall (by decide +kernel)

theorem nibbles_val (bs : List UInt8) :
    digitsVal 16 (bs.flatMap fun b => [i8 (b &&& 15), i8 ((b >>> 4) &&& 15)]) = leNat bs := by
  induction bs with
  | nil => rfl
  | cons b bs ih =>
    simp only [List.flatMap_cons, digitsVal_append, digitsVal, ih, leNat, i8_shr4,
      List.length_cons, List.length_nil]
    rw [i8_and15]
    have := b.toNat_lt
    push_cast
    generalize ((leNat bs : ℕ) : ℤ) = v
    have hb : ((b.toNat : ℕ) : ℤ) = (b.toNat : ℤ) % 16 + 16 * ((b.toNat : ℤ) / 16) := by omega
    linear_combination -hb

theorem nibbles_range (bs : List UInt8) :
    ∀ w ∈ (bs.flatMap fun b => [i8 (b &&& 15), i8 ((b >>> 4) &&& 15)]), 0 ≤ w.toInt ∧ w.toInt ≤ 15 := by
  intro w hw
  rw [List.mem_flatMap] at hw
  obtain ⟨b, -, h⟩ := hw
  have := b.toNat_lt
  simp only [List.mem_cons, List.not_mem_nil, or_false] at h
  rcases h with h | h <;> rw [h]
  · rw [i8_and15]; omega
  · rw [i8_shr4]; omega

theorem nibbles_length (bs : List UInt8) :
    (bs.flatMap fun b => [i8 (b &&& 15), i8 ((b >>> 4) &&& 15)]).length = 2 * bs.length := by
  induction bs with
  | nil => rfl
  | cons b bs ih => simp only [List.flatMap_cons, List.length_append, ih, List.length_cons, List.length_nil]; omega

/-- The 4-bit signed window of a scalar below 2^255. -/
theorem computeScalarWindow4_spec (s : Bytes 32) (h : leVal s < 2 ^ 255) :
    digitsVal 16 (computeScalarWindow4 s) = leVal s ∧
    (∀ w ∈ computeScalarWindow4 s, -8 ≤ w.toInt ∧ w.toInt ≤ 8) ∧
    (computeScalarWindow4 s).length = 64 := by
  have hv : digitsVal 16 (window4Raw s) = leVal s := nibbles_val _
  have hr : ∀ w ∈ window4Raw s, 0 ≤ w.toInt ∧ w.toInt ≤ 15 := nibbles_range _
  have hlen : (window4Raw s).length = 64 := by
    have := nibbles_length s.toList
    simpa [window4Raw] using this
  have h31 : s[31].toNat < 128 := top_lt (by simpa using h)
  have hlast : ∀ w ∈ (window4Raw s).getLast?, w.toInt ≤ 7 := by
    intro w hw
    have hs : s.toList = s.toList.dropLast ++ [s[31]] := by
      have hne : s.toList ≠ [] := by
        intro h; have := congrArg List.length h; simp at this
      rw [← List.dropLast_append_getLast hne]
      simp [List.getLast_eq_getElem]
    unfold window4Raw at hw
    rw [hs, List.flatMap_append, List.getLast?_append] at hw
    simp at hw
    rw [← hw]
    have : ((s[31] >>> 4).toInt8 &&& 15).toInt = _ := i8_shr4 s[31]
    rw [this]
    omega
  unfold computeScalarWindow4
  generalize hW : window4Raw s = W at *
  cases W with
  | nil => simp at hlen
  | cons a rest =>
    obtain ⟨ha, ha'⟩ := hr a (by simp)
    obtain ⟨h1, h2, h3⟩ := window4Sign_spec rest 0 a (by decide) (by decide) ha ha'
      (fun w hw => hr w (by simp [hw])) hlast
    refine ⟨?_, h2, ?_⟩
    · show digitsVal 16 (window4Sign 0 a rest) = _
      rw [h1, hv]; simp
    · show (window4Sign 0 a rest).length = _
      rw [h3]; simpa using hlen

theorem evens_odds_val (w : List Int8) :
    digitsVal 16 w = digitsVal 256 (evens w) + 16 * digitsVal 256 (odds w) := by
  induction w using evens.induct with
  | case1 a b rest ih => simp only [evens, odds, digitsVal, ih]; ring
  | case2 a => simp [evens, odds, digitsVal]
  | case3 => simp [evens, odds, digitsVal]

theorem evens_mem {α : Type} (w : List α) : ∀ x ∈ evens w, x ∈ w := by
  induction w using evens.induct with
  | case1 a b rest ih =>
    intro x hx
    rcases List.mem_cons.1 hx with h | h
    · simp [h]
    · simp [ih x h]
  | case2 a => intro x hx; exact hx
  | case3 => intro x hx; exact hx

theorem odds_mem {α : Type} (w : List α) : ∀ x ∈ odds w, x ∈ w := by
  induction w using evens.induct with
  | case1 a b rest ih =>
    intro x hx
    rcases List.mem_cons.1 hx with h | h
    · simp [h]
    · simp [ih x h]
  | case2 a => intro x hx; simp [odds] at hx
  | case3 => intro x hx; simp [odds] at hx

theorem evens_odds_length {α : Type} (w : List α) (n : ℕ) (h : w.length = 2 * n) :
    (evens w).length = n ∧ (odds w).length = n := by
  induction w using evens.induct generalizing n with
  | case1 a b rest ih =>
    simp only [List.length_cons] at h
    obtain ⟨h1, h2⟩ := ih (n - 1) (by omega)
    simp only [evens, odds, List.length_cons, h1, h2]; omega
  | case2 a => simp at h; omega
  | case3 => simp at h; simp [evens, odds, ← h]

end Ristretto.Proofs
