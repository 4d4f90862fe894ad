import Verif.Proofs.CrefMachine
import Verif.Spec.CrefExact

/-!
# Programs of the C reference implementation refine their reading over the field
-/

namespace Ristretto.Proofs.Cref
open Model FieldOps Model.Cref
open Sim (Flag F2)
set_option autoImplicit false

theorem iszero_pack {F F' : Type} [O : CrefOps F] [O' : CrefOps F'] {a : F} {a' : F'} (h : O.pack a = O'.pack a') :
    iszero a = iszero a' := by
  unfold iszero
  rw [h]

theorem exact_isZero (a : Fp) : F2 (iszero a) (1 - isNonZeroI a) := by
  have e : R 1 (CrefOps.unpack (FieldOps.bytes a) : Fe25) (FieldOps.setBytes (FieldOps.bytes a) : Fp) := rUnpack Fe25 Fp _
  rw [csim.gSetBytes a] at e
  generalize (CrefOps.unpack (FieldOps.bytes a) : Fe25) = u at e
  have e2 : CrefOps.pack u = CrefOps.pack a := cFe_pack (F := Fe25) e
  rw [← iszero_pack e2]
  exact e.isZero

/-- The exact functions compute what the Go code computes on exact field elements. -/
noncomputable instance csimX : CSim Fp Fp where
  R _ a x := a = x
  mono h _ := h
  add h h' _ := by rw [h, h']; rfl
  sub h h' _ := by rw [h, h']; rfl
  neg h _ := by rw [h]; rfl
  mul h h' := by rw [h, h']; rfl
  sq h := by rw [h]; rfl
  dsq h := by rw [h]; rfl
  pack {a x} h := by subst h; show feBytes a = leBytes 32 a.val; rfl
  isZero {a x} h := by
    subst h
    exact exact_isZero a
  cmov0 _ _ := rfl
  cmov1 _ _ := rfl
  unpack _ := rfl
  rZero := rfl
  rOne := rfl
  rM1 := rfl
  rI := rfl
  rD := rfl
  r2D := rfl
  rMagic := rfl
  g0 := csim.g0
  g1 := csim.g1
  gTouch := csim.gTouch
  gSetBytes := csim.gSetBytes
  gN := csim.gN
  gM := csim.gM
  g2 := csim.g2
  notBoth := csim.notBoth

theorem zero_ofBytes : (Vector.replicate 32 0 : Sc) = ofBytes (Vector.replicate 32 0) := by decide +kernel

theorem cp_eq {q r : ExtPt Fp} (h : CP q r) : q = r := by
  obtain ⟨h1, h2, h3, h4⟩ := h
  cases q; cases r
  simp only [ExtPt.mk.injEq]
  exact ⟨h1, h2, h3, h4⟩

theorem cp_refl (q : ExtPt Fp) : CP q q := ⟨rfl, rfl, rfl, rfl⟩

section
variable {F : Type} [O : CrefOps F] [L : CSim F Fp]

/-- Related memories. -/
structure XRel (m : CMem F) (n : CMem Fp) : Prop where
  fe : ∀ k, R 1 (m.fes k) (n.fes k)
  pt : ∀ k, CP (m.pts k) (n.pts k)
  sc : ∀ k, n.scs k = m.scs k ∧ ∃ b, m.scs k = ofBytes b ∧ leVal b < l

variable {m : CMem F} {n : CMem Fp}

theorem XRel.setFe (h : XRel m n) (f : ℕ) {v : F} {x : Fp} (hv : R 1 v x) : XRel (m.setFe f v) (n.setFe f x) :=
  ⟨fun k => by unfold CMem.setFe; simp only; split; exacts [hv, h.fe k], h.pt, h.sc⟩

theorem XRel.setPt (h : XRel m n) (f : ℕ) {v : ExtPt F} {x : ExtPt Fp} (hv : CP v x) : XRel (m.setPt f v) (n.setPt f x) :=
  ⟨h.fe, fun k => by unfold CMem.setPt; simp only; split; exacts [hv, h.pt k], h.sc⟩

theorem XRel.setSc (h : XRel m n) (f : ℕ) {v : Sc} (hv : ∃ b, v = ofBytes b ∧ leVal b < l) : XRel (m.setSc f v) (n.setSc f v) :=
  ⟨h.fe, h.pt, fun k => by unfold CMem.setSc; simp only; split; exacts [⟨rfl, hv⟩, h.sc k]⟩

theorem XRel.read (h : XRel m n) : ∀ r : FeRef, R 2 (m.read r) (n.read r)
  | .var f => (h.fe f).mono
  | .coord g .X => (h.pt g).X
  | .coord g .Y => (h.pt g).Y.mono
  | .coord g .Z => (h.pt g).Z.mono
  | .coord g .T => (h.pt g).T.mono

theorem XRel.write (h : XRel m n) {v : F} {x : Fp} (hv : R 1 v x) : ∀ r : FeRef, XRel (m.write v r) (n.write x r)
  | .var f => h.setFe f hv
  | .coord g .X => h.setPt g ⟨hv.mono, (h.pt g).Y, (h.pt g).Z, (h.pt g).T⟩
  | .coord g .Y => h.setPt g ⟨(h.pt g).X, hv, (h.pt g).Z, (h.pt g).T⟩
  | .coord g .Z => h.setPt g ⟨(h.pt g).X, (h.pt g).Y, hv, (h.pt g).T⟩
  | .coord g .T => h.setPt g ⟨(h.pt g).X, (h.pt g).Y, (h.pt g).Z, hv⟩

theorem x_unpack (buf : Bytes 32) : CP (geUnpack buf : ExtPt F × Int32).1 (geUnpack buf : ExtPt Fp × Int32).1 ∧
    (geUnpack buf : ExtPt F × Int32).2 = (geUnpack buf : ExtPt Fp × Int32).2 := by
  obtain ⟨h1, c, h2, h3⟩ := geUnpack_rel F Fp buf
  obtain ⟨k1, c', k2, k3⟩ := geUnpack_rel Fp Fp buf
  rw [cp_eq k1]
  exact ⟨h1, by rw [h3, k3, h2.1, k2.1]⟩

theorem x_call (h : XRel m n) (c : CCmd) : XRel (cexec m c).1 (cexec n c).1 ∧ (cexec m c).2 = (cexec n c).2 := by
  cases c with
  | feUnpack f buf => exact ⟨h.setFe f (rUnpack F Fp buf), rfl⟩
  | fePack f => exact ⟨h, congrArg COut.bytes (h.fe f).pack⟩
  | geUnpack g buf => exact ⟨h.setPt g (x_unpack buf).1, congrArg COut.int (x_unpack (F := F) buf).2⟩
  | gePack g => exact ⟨h, congrArg COut.bytes ((h.pt g).pack.trans (cp_refl (n.pts g)).pack.symm)⟩
  | geElligator g f =>
    refine ⟨h.setPt g ?_, rfl⟩
    rw [cp_eq (geElligator_rel (m := 1) (rfl : n.fes f = n.fes f))]
    exact geElligator_rel (h.fe f)
  | geNeg g x => exact ⟨h.setPt g (by rw [cp_eq (cp_refl (n.pts x)).neg]; exact (h.pt x).neg), rfl⟩
  | geAdd g x y =>
    exact ⟨h.setPt g (by rw [cp_eq ((cp_refl (n.pts x)).add (cp_refl (n.pts y)))]; exact (h.pt x).add (h.pt y)), rfl⟩
  | geDouble g x => exact ⟨h.setPt g (by rw [cp_eq (cp_refl (n.pts x)).double]; exact (h.pt x).double), rfl⟩
  | geScalarMult g x s =>
    refine ⟨h.setPt g ?_, rfl⟩
    obtain ⟨e, b, hb, -⟩ := h.sc s
    rw [e, hb, cp_eq ((cp_refl (n.pts x)).mult b)]
    exact (h.pt x).mult b
  | scUnpack s buf =>
    obtain ⟨b, hb, e⟩ := cSc_unpack buf
    exact ⟨h.setSc s ⟨b, hb, by rw [e]; exact ZMod.val_lt _⟩, rfl⟩
  | scPack s => exact ⟨h, by show COut.bytes _ = COut.bytes _; rw [(h.sc s).1]⟩

theorem ptrExec_rel (h : XRel m n) (c : PtrCmd) : XRel (ptrExec m c).1 (ptrExec n c).1 ∧ (ptrExec m c).2 = (ptrExec n c).2 := by
  cases c with
  | call c => exact x_call h c
  | unpackAt r buf => exact ⟨h.write (rUnpack F Fp buf) r, rfl⟩
  | packAt r => exact ⟨h, congrArg COut.bytes (h.read r).pack⟩
  | elligatorAt g r =>
    refine ⟨h.setPt g ?_, rfl⟩
    rw [cp_eq (geElligator_rel (m := 1) (rfl : n.read r = n.read r))]
    exact geElligator_rel (h.read r)

theorem ptrRun_rel : ∀ (prog : List PtrCmd) {m : CMem F} {n : CMem Fp}, XRel m n →
    XRel (ptrRun m prog).1 (ptrRun n prog).1 ∧ (ptrRun m prog).2 = (ptrRun n prog).2
  | [], _, _, h => ⟨h, rfl⟩
  | c :: cs, _, _, h => by
    obtain ⟨h1, h2⟩ := ptrExec_rel h c
    obtain ⟨h3, h4⟩ := ptrRun_rel cs h1
    exact ⟨h3, by simp only [ptrRun, h2, h4]⟩

theorem xRel_initOf {z : F} (z' : R 1 z (0 : Fp)) :
    XRel (⟨fun _ => z, fun _ => ⟨z, z, z, z⟩, CMem.init.scs⟩ : CMem F) exactInit :=
  ⟨fun _ => z', fun _ => ⟨z'.mono, z', z', z'⟩, fun _ => ⟨rfl, Vector.replicate 32 0, zero_ofBytes, by decide +kernel⟩⟩

end

theorem xRel_init : XRel CMem.init exactInit := xRel_initOf (F := Fe25) rZero

end Ristretto.Proofs.Cref
