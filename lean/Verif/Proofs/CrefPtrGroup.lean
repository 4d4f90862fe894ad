import Verif.Proofs.CrefPtr

/-!
The functions on points of Model/CrefPtr.lean.
-/

set_option autoImplicit false
set_option linter.unusedSimpArgs false
set_option linter.unusedSectionVars false

namespace Ristretto.Proofs.CrefPtr
open Ristretto Ristretto.Model Ristretto.Model.CrefPtr
open Ristretto.Model.Cref (CrefOps CrefTab AffPt Sc toByte cnot)

section
variable {F : Type} [O : CrefOps F]

attribute [local irreducible] op1 op2 copy cmov isnegative pack iszero iseq PMem.upd PMem.decl PMem.ld Wp Def

/-- A point in memory. -/
structure HasPt (m : PMem F) (p : Obj) (P : ExtPt F) : Prop where
  x : m ⟨p, 0⟩ = some P.X
  y : m ⟨p, 1⟩ = some P.Y
  z : m ⟨p, 2⟩ = some P.Z
  t : m ⟨p, 3⟩ = some P.T

theorem geAdd_wp (r x y : Obj) (m : PMem F) (X Y : ExtPt F) (hX : HasPt m x X) (hY : HasPt m y Y) (hx : Hi 51 x) (hy : Hi 51 y) (hr : Hi 51 r)
    (V : ExtPt F) (hV : V = Cref.geAdd X Y) : Wp (geAdd r x y m) (Out 51 (setPt r V m)) := by
  obtain ⟨a, b, c, d⟩ := hX
  obtain ⟨a', b', c', d'⟩ := hY
  have hxx := hi_eq hx
  have hxm := hx.all
  have hyy := hi_eq hy
  have hym := hy.all
  have hrr := hi_eq' hr
  unfold geAdd addP1p1 p1p1ToP3 p1p1ToP2
  pbody
  repeat pstp
  apply wp_some
  pfin hV

theorem geDouble_wp' (r x : Obj) (m : PMem F) (X : ExtPt F) (a : m ⟨x, 0⟩ = some X.X) (b : m ⟨x, 1⟩ = some X.Y) (c : m ⟨x, 2⟩ = some X.Z) (hx : Hi 52 x)
    (hr : Hi 52 r) (V : ExtPt F) (hV : V = Cref.geDouble X) : Wp (geDouble r x m) (Out 52 (setPt r V m)) := by
  have hxx := hi_eq hx
  have hxm := hx.all
  have hrr := hi_eq' hr
  unfold geDouble dblP1p1 p1p1ToP3 p1p1ToP2
  pbody
  repeat pstp
  apply wp_some
  pfin hV

theorem geDouble_wp (r x : Obj) (m : PMem F) (X : ExtPt F) (hX : HasPt m x X) (hx : Hi 52 x) (hr : Hi 52 r)
    (V : ExtPt F) (hV : V = Cref.geDouble X) : Wp (geDouble r x m) (Out 52 (setPt r V m)) :=
  geDouble_wp' r x m X hX.x hX.y hX.z hx hr V hV

theorem geNeg_wp (r x : Obj) (m : PMem F) (X : ExtPt F) (hX : HasPt m x X)
    (V : ExtPt F) (hV : V = Cref.geNeg X) : Wp (geNeg r x m) (Out 0 (setPt r V m)) := by
  obtain ⟨a, b, c, d⟩ := hX
  unfold geNeg
  pbody
  repeat pstp
  apply wp_some
  pfin hV

theorem geUnpack_wp (r : Obj) (b : Bytes 32) (m : PMem F) (hr : Hi 71 r) (V : ExtPt F) (i : Int32) (hV : V = (Cref.geUnpack b).1)
    (hi : i = (Cref.geUnpack (F := F) b).2) : Wp (geUnpack r b m) (fun a => a.1 = i ∧ Out 71 (setPt r V m) a.2) := by
  have hrr := hi_eq hr
  have hrx := hi_eq' hr
  have hrm := hr.all
  unfold geUnpack
  pbody
  repeat pstp
  apply wp_call (invsqrt_wp _ _ _ _ _ (by prd) (hi_loc _ _ (by omega)) _ rfl)
  intro M hM
  repeat pstp
  apply wp_some
  refine ⟨?_, ?_⟩
  · simp only [Def] at *
    subst hi
    subst_vars
    rfl
  · pfinS hV

theorem gePack_wp (x : Obj) (m : PMem F) (X : ExtPt F) (hX : HasPt m x X) (hx : Hi 91 x) : Wp (gePack x m) (· = Cref.gePack X) := by
  obtain ⟨a, b, c, d⟩ := hX
  have hxx := hi_eq hx
  have hxm := hx.all
  unfold gePack
  pbody
  repeat pstp
  apply wp_call (invsqrt_wp _ _ _ _ _ (by prd) (hi_loc _ _ (by omega)) _ rfl)
  intro M hM
  repeat pstp
  apply wp_some
  simp only [Def] at *
  subst_vars
  rfl

theorem fromJacobiQuartic_wp (x : Obj) (s t : Addr) (m : PMem F) (S T : F) (hs : m s = some S) (ht : m t = some T) (hx : Hi 102 x) (hs' : Hi 102 s.obj)
    (ht' : Hi 102 t.obj) (V : ExtPt F) (hV : V = Cref.fromJacobiQuartic S T) : Wp (fromJacobiQuartic x s t m) (Out 102 (setPt x V m)) := by
  obtain ⟨p, o⟩ := s
  obtain ⟨q, o'⟩ := t
  dsimp only at hs' ht'
  have hxx := hi_eq' hx
  have hss := hi_eq hs'
  have hsm := hs'.all
  have htt := hi_eq ht'
  have htm := ht'.all
  unfold fromJacobiQuartic p1p1ToP3 p1p1ToP2
  pbody
  repeat pstp
  apply wp_some
  pfin hV

theorem geElligator_wp (x : Obj) (p : Obj) (o : Nat) (m : PMem F) (X : F) (hX : m ⟨p, o⟩ = some X) (hx : Hi 126 x) (hp : Hi 126 p)
    (V : ExtPt F) (hV : V = Cref.geElligator X) : Wp (geElligator x ⟨p, o⟩ m) (Out 126 (setPt x V m)) := by
  have hpp := hi_eq hp
  have hpm := hp.all
  have hxx := hi_eq' hx
  have hxm := hx.all
  unfold geElligator
  pbody
  repeat pstp
  apply wp_callI (invsqrti_wp _ _ _ _ _ (by prd) (hi_loc _ _ (by omega)) _ _ rfl rfl)
  intro M hM
  dsimp only
  apply wp_call (abs_wp _ _ _ _ _ (by prd) (hi_loc _ _ (by omega)) (hi_loc _ _ (by omega)) _ rfl)
  intro M' hM'
  repeat pstp
  apply wp_last
  apply wp_call (fromJacobiQuartic_wp _ _ _ _ _ _ (by prd) (by prd) (hxm _ (by omega)) (hi_loc _ _ (by omega)) (hi_loc _ _ (by omega)) _ rfl)
  intro M'' hM''
  apply wp_some
  pfin hV

theorem mixadd2_wp (r q : Obj) (m : PMem F) (R : ExtPt F) (Q : AffPt F) (hR : HasPt m r R) (hx : m ⟨q, 0⟩ = some Q.x) (hy : m ⟨q, 1⟩ = some Q.y)
    (hr : Hi 141 r) (hq : Hi 141 q) (V : ExtPt F) (hV : V = Cref.mixadd2 R Q) : Wp (mixadd2 r q m) (Out 141 (setPt r V m)) := by
  obtain ⟨a, b, c, d⟩ := hR
  have hrr := hi_eq hr
  have hry := hi_eq' hr
  have hrm := hr.all
  have hpp := hi_eq hq
  have hpm := hq.all
  unfold mixadd2
  pbody
  repeat pstp
  apply wp_some
  pfin hV

theorem geEquals_wp (x y : Obj) (m : PMem F) (X Y : ExtPt F) (a : m ⟨x, 0⟩ = some X.X) (b : m ⟨x, 1⟩ = some X.Y) (a' : m ⟨y, 0⟩ = some Y.X)
    (b' : m ⟨y, 1⟩ = some Y.Y) (hx : Hi 204 x) (hy : Hi 204 y) :
    Wp (geEquals x y m) (fun a => a.1 = Cref.geEquals X Y ∧ Out 204 m a.2) := by
  have hxx := hi_eq hx
  have hxm := hx.all
  have hyy := hi_eq hy
  have hym := hy.all
  unfold geEquals
  pbody
  repeat pstp
  apply wp_some
  refine ⟨?_, ?_⟩
  · simp only [Def] at *
    subst_vars
    rfl
  · intro q hq o
    have hqq := hi_eq hq
    have hqm := hq.all
    prd

end

end Ristretto.Proofs.CrefPtr
