import Verif.Proofs.CrefSim
import Verif.Proofs.CrefField
import Verif.Proofs.Sim25

/-!
# The laws of the field of the C reference implementation
-/

namespace Ristretto.Proofs.Cref
open Model FieldOps Model.Cref
open Sim (Flag F2)
set_option autoImplicit false

theorem staticEqual_byte (b : UInt8) : (1 : UInt32) - staticEqual 0 b.toUInt32 = if b = 0 then 0 else 1 := by
  revert b
  exact uint8_forall (by decide +kernel)

theorem iszero_fold (l : List UInt8) : ∀ r : Int32, r = 0 ∨ r = 1 →
    l.foldl (fun (r : Int32) b => (r.toUInt32 ||| (1 - staticEqual 0 b.toUInt32)).toInt32) r =
      if r = 1 ∨ leNat l ≠ 0 then 1 else 0 := by
  induction l with
  | nil => intro r hr; rcases hr with rfl | rfl <;> simp [leNat]
  | cons b bs ih =>
    intro r hr
    rw [List.foldl_cons, staticEqual_byte]
    have hb : b.toNat = 0 ↔ b = 0 := by
      constructor
      · intro h; exact UInt8.toNat_inj.1 h
      · rintro rfl; rfl
    by_cases h0 : b = 0
    · subst h0
      rcases hr with rfl | rfl
      · rw [if_pos rfl, show ((0 : Int32).toUInt32 ||| 0).toInt32 = 0 from rfl, ih 0 (.inl rfl)]
        simp [leNat]
      · rw [if_pos rfl, show ((1 : Int32).toUInt32 ||| 0).toInt32 = 1 from rfl, ih 1 (.inr rfl)]
        simp
    · have h1 : ((r.toUInt32 ||| 1).toInt32) = 1 := by rcases hr with rfl | rfl <;> rfl
      have h2 : leNat (b :: bs) ≠ 0 := by
        have : b.toNat ≠ 0 := fun h => h0 (hb.1 h)
        simp only [leNat]; omega
      rw [if_neg h0, h1, ih 1 (.inr rfl), if_pos (.inl rfl), if_pos (.inr h2)]

theorem iszero_eq (a : Fe25) : iszero a = if leVal (Cref.pack a) = 0 then 1 else 0 := by
  show 1 - (Cref.pack a).toList.foldl _ 0 = _
  rw [iszero_fold _ 0 (.inl rfl)]
  show (1 : Int32) - (if (0 : Int32) = 1 ∨ leVal (Cref.pack a) ≠ 0 then 1 else 0) = _
  by_cases h : leVal (Cref.pack a) = 0
  · rw [if_neg (by simp [h]), if_pos h]; rfl
  · rw [if_pos (.inr h), if_neg h]; rfl

section
variable {m : ℕ} {a : Fe25} {x : Fp}

theorem pack_rel (h : Fe25.R m a x) (hm : m ≤ 3 := by norm_num) : Cref.pack a = FieldOps.bytes x := h.bytes hm

theorem sqLimbs (h : Fe25.R 3 a x) : Limbs25 sqB sqC a := Fe25.Limbs25.mono h.1 (by decide) (by decide)

theorem isZero_rel (h : Fe25.R 3 a x) : F2 (iszero a) (1 - isNonZeroI x) := by
  have e : (1 : Int32) - isNonZeroI x = if x = 0 then 1 else 0 := by
    rw [isNonZeroI_spec (F := Fp) (x := x) trivial]
    show 1 - flag (x ≠ 0) = _
    unfold flag
    by_cases h : x = 0
    · simp only [h, ne_eq, not_true_eq_false, if_false, if_true]; rfl
    · simp only [h, ne_eq, not_false_eq_true, if_true, if_false]; rfl
  refine ⟨?_, ?_⟩
  · rw [iszero_eq, pack_rel h, LawfulField.bytes_law (F := Fp) (a := x) trivial, e]
    show (if ZMod.val x = 0 then (1 : Int32) else 0) = _
    by_cases hx : x = 0
    · rw [if_pos hx, if_pos (by rw [hx]; exact ZMod.val_zero)]
    · rw [if_neg hx, if_neg (by rwa [ZMod.val_eq_zero])]
  · rw [e]; split
    · exact .inr rfl
    · exact .inl rfl
end

local macro "dk" : tactic => `(tactic| decide +kernel)

open Fe25 (R.of_nat) in
instance csim : CSim Fe25 Fp where
  R := Fe25.R
  mono h hmn := h.mono hmn
  add h h' hmn := h.add h' hmn
  sub h h' hmn := h.sub h' hmn
  neg h hm := h.neg hm
  mul h h' := h.mul h'
  sq {a x} h := by
    show Fe25.R 1 (Cref.square a) _
    rw [square_eq (sqLimbs h)]; exact h.sq
  dsq {a x} h := by
    show Fe25.R 1 (Cref.squareDouble a) _
    rw [squareDouble_eq (sqLimbs h)]; exact h.dsq
  pack h := h.bytes
  isZero h := isZero_rel h
  cmov0 _ _ := cmov_zero _ _
  cmov1 _ _ := cmov_one _ _
  unpack b := by
    obtain ⟨h1, h2⟩ := unpack_spec b
    exact ⟨Fe25.bu_tight h1, h2⟩
  rZero := Fe25.rZero
  rOne := Fe25.rOne
  rM1 := .of_nat (n := p - 1) (by dk) (by dk) (by rw [Nat.cast_sub (by norm_num [p])]; simp; rfl)
  rI := .of_nat (by dk)
    (n := 19681161376707505956807079304988542015446066515923890162744021073123829784752) (by dk) rfl
  rD := .of_nat (n := dNat) (by dk) (by dk) (by rw [← d_eq]; rfl)
  r2D := .of_nat (n := 2 * dNat) (by dk) (by dk) (by push_cast; rw [← d_eq]; rfl)
  rMagic := .of_nat
    (n := 3426737609748780790789678635598812321241395039892825098523479107644843802371) (by dk) (by dk) rfl
  g0 _ _ := rfl
  g1 _ _ := rfl
  gTouch _ := rfl
  gSetBytes x := by
    show ((leVal (leBytes 32 x.val) % 2 ^ 255 : ℕ) : Fp) = x
    have hx : x.val < 2 ^ 255 := lt_trans (ZMod.val_lt x) (by norm_num [p])
    rw [leVal_leBytes, Nat.mod_eq_of_lt (a := x.val) (lt_trans hx (by norm_num)), Nat.mod_eq_of_lt hx,
      ZMod.natCast_zmod_val]
  gN := by
    show -(d * d - 1) = 1 - d ^ 2
    ring
  gM := by
    show (d - 1) * (d - 1) = (d - 1) ^ 2
    ring
  g2 x := by
    show (x + x) * eC = x * (2 * eC)
    ring
  notBoth := Fe25.not_both

end Ristretto.Proofs.Cref
