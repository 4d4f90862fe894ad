import Verif.Proofs.CrefMult
import Verif.Proofs.ScalarPack
import Verif.Proofs.LizardNat

/-!
# Scalars of the C reference implementation
-/

namespace Ristretto.Proofs.Cref
open Model FieldOps Model.Cref
set_option autoImplicit false

/-- The number digits in radix 256 stand for. -/
def digNat : List UInt32 → ℕ
  | [] => 0
  | a :: as => a.toNat + 256 * digNat as

theorem digNat_map (b : List UInt8) : digNat (b.map UInt8.toUInt32) = leNat b := by
  induction b with
  | nil => rfl
  | cons a as ih => simp only [List.map_cons, digNat, leNat, ih, UInt8.toNat_toUInt32]

theorem digit_step (r m pb : UInt32) (hr : r.toNat < 256) (hm : m.toNat < 256) (hpb : pb.toNat ≤ 1) :
    (lt r (pb + m)).toNat ≤ 1 ∧
    (((r - (pb + m) + (lt r (pb + m) <<< 8)).toUInt8.toNat : ℤ) =
      r.toNat - m.toNat - pb.toNat + 256 * (lt r (pb + m)).toNat) := by
  have e1 : (pb + m).toNat = pb.toNat + m.toNat := by
    rw [UInt32.toNat_add, Nat.mod_eq_of_lt]; simp only [Nat.reducePow]; omega
  generalize pb + m = q at *
  have e2 : (r - q).toNat = if q.toNat ≤ r.toNat then r.toNat - q.toNat else 2 ^ 32 + r.toNat - q.toNat := by
    rw [UInt32.toNat_sub]
    simp only [Nat.reducePow]
    split <;> omega
  have e3 : (lt r q).toNat = if q.toNat ≤ r.toNat then 0 else 1 := by
    unfold lt
    simp only [UInt32.toNat_shiftRight, e2, Nat.shiftRight_eq_div_pow]
    simp only [UInt32.reduceToNat, Nat.reducePow, Nat.reduceMod]
    split <;> omega
  refine ⟨by rw [e3]; split <;> omega, ?_⟩
  have e4 : ((lt r q) <<< 8).toNat = if q.toNat ≤ r.toNat then 0 else 256 := by
    rw [UInt32.toNat_shiftLeft, e3]
    split <;> rfl
  rw [UInt32.toNat_toUInt8, UInt32.toNat_add, e2, e4, e3]
  simp only [Nat.reducePow]
  split <;> omega

theorem subLoop_spec : ∀ (rm : List (UInt32 × UInt32)) (pb : UInt32), pb.toNat ≤ 1 →
    (∀ x ∈ rm, x.1.toNat < 256 ∧ x.2.toNat < 256) →
    (subLoop pb rm).1.length = rm.length ∧ (subLoop pb rm).2.toNat ≤ 1 ∧
    ((leNat (subLoop pb rm).1 : ℤ) = digNat (rm.map Prod.fst) - digNat (rm.map Prod.snd) - pb.toNat +
      256 ^ rm.length * (subLoop pb rm).2.toNat) := by
  intro rm
  induction rm with
  | nil => intro pb h _; refine ⟨rfl, h, ?_⟩; simp [subLoop, leNat, digNat]
  | cons x rm ih =>
    intro pb h hx
    obtain ⟨r, m⟩ := x
    obtain ⟨h1, h2⟩ := hx (r, m) (by simp)
    obtain ⟨s1, s2⟩ := digit_step r m pb h1 h2 h
    obtain ⟨i1, i2, i3⟩ := ih (lt r (pb + m)) s1 (fun y hy => hx y (by simp [hy]))
    simp only [subLoop, List.map_cons, digNat, leNat, List.length_cons]
    refine ⟨by rw [i1], i2, ?_⟩
    push_cast
    rw [s2, i3]
    ring

theorem mOrder_val : digNat mOrder = l := by decide +kernel

theorem ofBytes_toList (b : Bytes 32) : (ofBytes b).toList = b.toList.map UInt8.toUInt32 := by
  exact Vector.toList_map

theorem leVal_leBytes_list (ts : List UInt8) (h : ts.length = 32) : ∃ c : Bytes 32, c.toList = ts :=
  ⟨⟨ts.toArray, by simpa using h⟩, by simp⟩

/-- One conditional subtraction of the group order. -/
theorem reduceAddSub_spec (b : Bytes 32) :
    ∃ c : Bytes 32, reduceAddSub (ofBytes b) = ofBytes c ∧ leVal c = if leVal b < l then leVal b else leVal b - l := by
  have hlen : (ofBytes b).toList.length = 32 := by simp
  have hm : mOrder.length = 32 := rfl
  have hmb : ∀ x ∈ mOrder, x.toNat < 256 := by decide +kernel
  obtain ⟨h1, h2, h3⟩ := subLoop_spec ((ofBytes b).toList.zip mOrder) 0 (by decide) (by
    intro x hx
    obtain ⟨a, m⟩ := x
    refine ⟨?_, hmb _ (List.of_mem_zip hx).2⟩
    have := (List.of_mem_zip hx).1
    rw [ofBytes_toList] at this
    obtain ⟨u, -, rfl⟩ := List.mem_map.1 this
    show u.toUInt32.toNat < 256
    rw [UInt8.toNat_toUInt32]; exact u.toNat_lt)
  rw [List.map_fst_zip (by rw [hlen, hm]), List.map_snd_zip (by rw [hlen, hm]), mOrder_val, ofBytes_toList, digNat_map] at h3
  rw [← ofBytes_toList] at h3
  have hz : ((ofBytes b).toList.zip mOrder).length = 32 := by simp [hm]
  rw [hz] at h1 h3
  unfold reduceAddSub
  simp only
  generalize subLoop 0 ((ofBytes b).toList.zip mOrder) = tb at *
  obtain ⟨ts, br⟩ := tb
  simp only at h1 h2 h3 ⊢
  obtain ⟨c, hc⟩ := leVal_leBytes_list ts h1
  have hb : (leNat b.toList : ℤ) = leVal b := rfl
  have hcv : leNat ts = leVal c := by unfold leVal; rw [hc]
  have hclt : leVal c < 256 ^ 32 := leVal_lt c
  have hblt : leVal b < 256 ^ 32 := leVal_lt b
  have hlpos : (0 : ℤ) < l := by exact_mod_cast (by decide +kernel : 0 < l)
  have hll : l < 256 ^ 32 := by decide +kernel
  rw [hb, hcv] at h3
  rcases (by omega : br.toNat = 0 ∨ br.toNat = 1) with h | h
  · have hbr : br = 0 := UInt32.toNat_inj.1 h
    subst hbr
    refine ⟨c, ?_, ?_⟩
    · unfold ofBytes
      ext i hi
      have : (ts.getD i 0) = c[i] := by
        rw [← hc, List.getD_eq_getElem?_getD]; simp [hi]
      simp only [Vector.getElem_ofFn, Vector.getElem_map, Fin.getElem_fin, this]
      have : ((0 : UInt32) - 1) &&& (b[i].toUInt32 ^^^ c[i].toUInt32) = b[i].toUInt32 ^^^ c[i].toUInt32 := by
        rw [show (0 : UInt32) - 1 = -1 from rfl]; exact UInt32.neg_one_and
      rw [this, ← UInt32.xor_assoc, UInt32.xor_self, UInt32.zero_xor]
    · have : (leVal c : ℤ) = leVal b - l := by simpa using h3
      rw [if_neg (by omega)]
      omega
  · have hbr : br = 1 := UInt32.toNat_inj.1 h
    subst hbr
    refine ⟨b, ?_, ?_⟩
    · unfold ofBytes
      ext i hi
      simp only [Vector.getElem_ofFn, Vector.getElem_map, Fin.getElem_fin]
      rw [show (1 : UInt32) - 1 = 0 from rfl, UInt32.zero_and, UInt32.xor_zero]
    · have h4 : (leVal c : ℤ) = leVal b - l + 256 ^ 32 := by simpa using h3
      have h5 : ((256 : ℤ) ^ 32) = ((256 ^ 32 : ℕ) : ℤ) := by norm_num
      rw [h5] at h4
      rw [if_pos (by omega)]

theorem leVal_set31 (x : Bytes 32) : leVal (x.set 31 (x[31] &&& 0x1f)) = leVal x % 2 ^ 253 := by
  have h31 : (x[31] &&& 0x1f).toNat = x[31].toNat % 32 := by
    rw [UInt8.toNat_and]; exact Nat.and_two_pow_sub_one_eq_mod _ 5
  have hx : ∀ y : Bytes 32, leVal y = leNat (y.toList.take 31) + 256 ^ 31 * y[31].toNat := by
    intro y
    have : y.toList = y.toList.take 31 ++ [y[31]] := by
      conv_lhs => rw [← List.take_append_drop 31 y.toList]
      congr 1
      rw [List.drop_eq_getElem_cons (by simp), List.drop_eq_nil_of_le (by simp)]
      simp
    unfold leVal
    conv_lhs => rw [this]
    rw [leNat_append']
    simp [leNat]
  have ht : (x.set 31 (x[31] &&& 0x1f)).toList.take 31 = x.toList.take 31 := by
    rw [Vector.toList_set, List.take_set_of_le (by omega)]
  have hlt : leNat (x.toList.take 31) < 256 ^ 31 := by
    have := leNat_lt (x.toList.take 31)
    simpa using this
  rw [hx, hx x, ht, Vector.getElem_set_self, h31]
  generalize leNat (x.toList.take 31) = A at *
  generalize x[31].toNat = B
  simp only [Nat.reducePow] at *
  omega

theorem scUnpack_spec (x : Bytes 32) :
    ∃ c : Bytes 32, scUnpack x = ofBytes c ∧ leVal c = leVal x % 2 ^ 253 % l := by
  have e : scUnpack x = reduceAddSub (ofBytes (x.set 31 (x[31] &&& 0x1f))) := by
    unfold scUnpack ofBytes
    simp only
    congr 1
    ext i hi
    simp only [Vector.getElem_set, Vector.getElem_map]
    split
    · have : ∀ a : UInt8, a.toUInt32 &&& 0x1f = (a &&& 0x1f).toUInt32 := uint8_forall (by decide +kernel)
      rw [this]
    · rfl
  obtain ⟨c, h1, h2⟩ := reduceAddSub_spec (x.set 31 (x[31] &&& 0x1f))
  refine ⟨c, e.trans h1, ?_⟩
  rw [h2, leVal_set31]
  have hl2 : 2 ^ 253 < 2 * l := by decide +kernel
  have : leVal x % 2 ^ 253 < 2 ^ 253 := Nat.mod_lt _ (by norm_num)
  generalize leVal x % 2 ^ 253 = V at *
  clear h2 e h1
  split
  · rw [Nat.mod_eq_of_lt (a := V) (by assumption)]
  · rw [Nat.mod_eq_sub_mod (a := V) (by omega), Nat.mod_eq_of_lt (a := V - l) (by omega)]

end Ristretto.Proofs.Cref
