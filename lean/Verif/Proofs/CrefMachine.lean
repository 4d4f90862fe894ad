import Verif.Proofs.CrefSim25
import Verif.Proofs.CrefScalar
import Verif.Proofs.Machine
import Verif.Spec.CrefMachine

/-!
# Programs of the C reference implementation refine the abstract machine
-/

namespace Ristretto.Proofs.Cref
open Model FieldOps Model.Cref
open Sim (Flag F2)
set_option autoImplicit false

section
variable {F : Type} [O : CrefOps F] [L : CSim F Fp]

/-- `q` holds the group element `g`, or is blank. -/
def CPt (q : ExtPt F) (g : Option RGroup) : Prop := ∃ r : ExtPt Fp, CP q r ∧ PtRel r g

/-- `v` holds the scalar `x`. -/
def CSc (v : Sc) (x : ZMod l) : Prop := ∃ b : Bytes 32, v = ofBytes b ∧ leVal b = x.val

/-- `a` holds the field element `x`. -/
def CFe (a : F) (x : Fp) : Prop := R 1 a x

theorem cPt_add {q r : ExtPt F} {g h : Option RGroup} : CPt q g → CPt r h → CPt (geAdd q r) (addO g h) :=
  fun ⟨_, a, b⟩ ⟨_, c, d⟩ => ⟨_, a.add c, b.add d⟩

theorem cPt_double {q : ExtPt F} {g : Option RGroup} : CPt q g → CPt (geDouble q) (dblO g) :=
  fun ⟨_, a, b⟩ => ⟨_, a.double, b.double⟩

theorem cPt_neg {q : ExtPt F} {g : Option RGroup} : CPt q g → CPt (geNeg q) (negO g) :=
  fun ⟨_, a, b⟩ => ⟨_, a.neg, b.neg⟩

theorem cPt_pack {q : ExtPt F} {g : Option RGroup} : CPt q g → gePack q = encO g :=
  fun ⟨_, a, b⟩ => a.pack.trans b.bytes

theorem cPt_elligator {a : F} {x : Fp} (h : CFe a x) : CPt (geElligator a) (some (ellMap x)) :=
  ⟨_, geElligator_rel h, ell_holds (F := Fp) (fe := x) trivial⟩

theorem l_lt : l < 2 ^ 253 := by decide +kernel

theorem cPt_mult {q : ExtPt F} {g : Option RGroup} {v : Sc} {x : ZMod l} :
    CPt q g → CSc v x → CPt (geScalarMult q v) (smulO x g) := by
  rintro ⟨r, a, b⟩ ⟨s, rfl, hs⟩
  refine ⟨_, a.mult s, ?_⟩
  have hlt : leVal s < 2 ^ 254 := by
    rw [hs]
    exact lt_trans (lt_trans (ZMod.val_lt x) l_lt) (by norm_num)
  cases g with
  | none =>
    have h := fullMult_deg (G := Fp) b s hlt
    show PtRel _ (if x = 0 then some 0 else none)
    rw [hs] at h
    split
    · rename_i h0
      exact ⟨0, Even.zero_mem, h.2 (fun hn => hn (by rw [h0]; exact ZMod.val_zero)), rfl⟩
    · rename_i h0
      exact h.1 (fun hn => h0 ((ZMod.val_eq_zero x).1 hn))
  | some g =>
    obtain ⟨P, hP, h1, rfl⟩ := b
    refine ⟨x.val • P, Even.nsmul_mem hP _, ?_, rfl⟩
    rw [← hs]
    exact fullMult_spec h1 s hlt

theorem cPt_unpack (buf : Bytes 32) : CPt (geUnpack buf : ExtPt F × Int32).1 (crefDecode buf) ∧
    (geUnpack buf : ExtPt F × Int32).2 = if (crefDecode buf).isSome then 0 else -1 := by
  obtain ⟨h1, c, h2, h3⟩ := geUnpack_rel F Fp buf
  have e : FieldOps.bytes (FieldOps.setBytes buf : Fp) = feBytes (feOfBytes buf) := rfl
  rw [e] at h1 h2
  obtain ⟨g1, g2⟩ := ptRel_setBytes (F := Fp) (feBytes (feOfBytes buf))
  refine ⟨⟨_, h1, g1⟩, ?_⟩
  have g3 : (crefDecode buf).isSome = ((ExtPt.setRistrettoI (feBytes (feOfBytes buf)) : ExtPt Fp × Int32).2 == 0) := g2.symm
  rw [h3, g3]
  obtain ⟨rfl, hf⟩ := h2
  generalize (ExtPt.setRistrettoI (feBytes (feOfBytes buf)) : ExtPt Fp × Int32).2 = c at *
  rcases hf with rfl | rfl <;> rfl

theorem cSc_unpack (buf : Bytes 32) : CSc (scUnpack buf) ((leVal buf % 2 ^ 253 : ℕ) : ZMod l) := by
  obtain ⟨c, h1, h2⟩ := scUnpack_spec buf
  exact ⟨c, h1, by rw [h2, ZMod.val_natCast]⟩

theorem cSc_pack {v : Sc} {x : ZMod l} : CSc v x → scPack v = scBytes x := by
  rintro ⟨b, rfl, h⟩
  rw [scPack_ofBytes]
  apply leVal_inj
  rw [show scBytes x = leBytes 32 x.val from rfl]
  rw [leVal_leBytes, h, Nat.mod_eq_of_lt (lt_trans (ZMod.val_lt x) (lt_trans l_lt (by norm_num)))]

theorem cFe_pack {a : F} {x : Fp} (h : CFe a x) : O.pack a = feBytes x := h.pack

theorem cFe_unpack (buf : Bytes 32) : CFe (O.unpack buf : F) (feOfBytes buf) := rUnpack F Fp buf

/-- The variables hold what the abstract variables hold. -/
structure CRel (m : CMem F) (a : CState) : Prop where
  fe : ∀ k, CFe (m.fes k) (a.fes k)
  pt : ∀ k, CPt (m.pts k) (a.pts k)
  sc : ∀ k, CSc (m.scs k) (a.scs k)

theorem CRel.setFe {m : CMem F} {a : CState} (h : CRel m a) (f : ℕ) {v : F} {x : Fp} (hv : CFe v x) :
    CRel (m.setFe f v) (a.setFe f x) :=
  ⟨fun k => by unfold CMem.setFe CState.setFe; simp only; split; exacts [hv, h.fe k], h.pt, h.sc⟩

theorem CRel.setPt {m : CMem F} {a : CState} (h : CRel m a) (f : ℕ) {v : ExtPt F} {x : Option RGroup} (hv : CPt v x) :
    CRel (m.setPt f v) (a.setPt f x) :=
  ⟨h.fe, fun k => by unfold CMem.setPt CState.setPt; simp only; split; exacts [hv, h.pt k], h.sc⟩

theorem CRel.setSc {m : CMem F} {a : CState} (h : CRel m a) (f : ℕ) {v : Sc} {x : ZMod l} (hv : CSc v x) :
    CRel (m.setSc f v) (a.setSc f x) :=
  ⟨h.fe, h.pt, fun k => by unfold CMem.setSc CState.setSc; simp only; split; exacts [hv, h.sc k]⟩

theorem cexec_rel {m : CMem F} {a : CState} (h : CRel m a) (c : CCmd) :
    CRel (cexec m c).1 (caexec a c).1 ∧ (cexec m c).2 = (caexec a c).2 := by
  cases c with
  | feUnpack f buf => exact ⟨h.setFe f (cFe_unpack buf), rfl⟩
  | fePack f => exact ⟨h, congrArg COut.bytes (cFe_pack (h.fe f))⟩
  | geUnpack g buf => exact ⟨h.setPt g (cPt_unpack buf).1, congrArg COut.int (cPt_unpack buf).2⟩
  | gePack g => exact ⟨h, congrArg COut.bytes (cPt_pack (h.pt g))⟩
  | geElligator g f => exact ⟨h.setPt g (cPt_elligator (h.fe f)), rfl⟩
  | geNeg g x => exact ⟨h.setPt g (cPt_neg (h.pt x)), rfl⟩
  | geAdd g x y => exact ⟨h.setPt g (cPt_add (h.pt x) (h.pt y)), rfl⟩
  | geDouble g x => exact ⟨h.setPt g (cPt_double (h.pt x)), rfl⟩
  | geScalarMult g x s => exact ⟨h.setPt g (cPt_mult (h.pt x) (h.sc s)), rfl⟩
  | scUnpack s buf => exact ⟨h.setSc s (cSc_unpack buf), rfl⟩
  | scPack s => exact ⟨h, congrArg COut.bytes (cSc_pack (h.sc s))⟩

theorem crun_rel : ∀ (prog : List CCmd) {m : CMem F} {a : CState}, CRel m a →
    CRel (crun m prog).1 (carun a prog).1 ∧ (crun m prog).2 = (carun a prog).2
  | [], _, _, h => ⟨h, rfl⟩
  | c :: cs, _, _, h => by
    obtain ⟨h1, h2⟩ := cexec_rel h c
    obtain ⟨h3, h4⟩ := crun_rel cs h1
    exact ⟨h3, by simp only [crun, carun, h2, h4]⟩

end

/-- Go's zero values over an implementation of the field. -/
def initOf {F : Type} (z : F) : CMem F := ⟨fun _ => z, fun _ => ⟨z, z, z, z⟩, fun _ => Vector.replicate 32 0⟩

theorem cRel_initOf {F : Type} [CrefOps F] [CSim F Fp] {z : F} (z' : R 1 z (0 : Fp)) :
    CRel (initOf z) CState.init := by
  refine ⟨fun _ => z', fun _ => ⟨⟨0, 0, 0, 0⟩, ⟨z'.mono, z', z', z'⟩, deg_zero (F := Fp)⟩, fun _ => ⟨Vector.replicate 32 0, ?_, ?_⟩⟩
  · show Vector.replicate 32 0 = (Vector.replicate 32 (0 : UInt8)).map UInt8.toUInt32
    rw [Vector.map_replicate]; rfl
  · show _ = ZMod.val (0 : ZMod l)
    rw [ZMod.val_zero]
    decide +kernel

theorem cRel_init : CRel CMem.init CState.init :=
  cRel_initOf (z := (⟨0, 0, 0, 0, 0, 0, 0, 0, 0, 0⟩ : Fe25)) rZero

end Ristretto.Proofs.Cref
