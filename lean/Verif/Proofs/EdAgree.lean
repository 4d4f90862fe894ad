import Verif.Proofs.EdGenericAll
import Verif.Proofs.Sim51
import Verif.Proofs.SimAsm

/-!
# The default build follows the ideal field for every program over package edwards25519
-/

namespace Ristretto.Proofs.Ed
open Model hiding Mem Cmd exec run bit Out
open Model.Ed FieldOps
open Ristretto.Ed (mayCall fullAfter Fine)
open Sim (F2 R Loose Good OptRel SimField)
set_option autoImplicit false

section
variable {F : Type} [FieldOps F] [L : SimField F Fp]

theorem AllSim.clear {raw : ℕ → Bool} {m : Mem F} {m' : Mem Fp} (hG : ∀ {q : ExtPt F} {r : ExtPt Fp}, Loose q r → Good q r)
    (h : AllSim raw m m') : AllSim (fun _ => false) m m' := { h with good := fun i _ => hG (h.ext i) }

theorem mayCall_clear (c : Cmd) : mayCall (fun _ => false) c = true := by cases c <;> rfl

/-- If every related point may be a second operand, all programs keep the relation. -/
theorem grun_free (hG : ∀ {q : ExtPt F} {r : ExtPt Fp}, Loose q r → Good q r) (hI : R 1 (feMinusI : F) (feMinusI : Fp))
    (hD : ∀ {a b : F} {x y : Fp}, R 2 a x → R 2 b y → isNonZeroI (FieldOps.sub a b) = isNonZeroI (FieldOps.sub x y)) :
    ∀ (prog : List Cmd) {m : Mem F} {m' : Mem Fp}, AllSim (fun _ => false) m m' →
      OptRel (fun (r : Mem F × List Ed.Out) (r' : Mem Fp × List Ed.Out) => r.2 = r'.2 ∧ AllSim (fun _ => false) r.1 r'.1)
        (grun m prog) (grun m' prog)
  | [], m, m', h => ⟨rfl, h⟩
  | c :: cs, m, m', h => by
    have h1 := gexec_all hI hD h c (mayCall_clear c)
    unfold grun
    cases hg : gexec m c with
    | none =>
      cases hg' : gexec m' c with
      | none => trivial
      | some r' => rw [hg, hg'] at h1; exact h1.elim
    | some r =>
      cases hg' : gexec m' c with
      | none => rw [hg, hg'] at h1; exact h1.elim
      | some r' =>
        rw [hg, hg'] at h1
        obtain ⟨e1, h2⟩ := h1
        have h3 := grun_free hG hI hD cs (h2.clear hG)
        simp only
        cases hk : grun r.1 cs with
        | none =>
          cases hk' : grun r'.1 cs with
          | none => trivial
          | some s' => rw [hk, hk'] at h3; exact h3.elim
        | some s =>
          cases hk' : grun r'.1 cs with
          | none => rw [hk, hk'] at h3; exact h3.elim
          | some s' =>
            rw [hk, hk'] at h3
            obtain ⟨e2, h4⟩ := h3
            exact ⟨congrArg₂ List.cons e1 e2, h4⟩
end

theorem good51 {q : ExtPt Fe51} {r : ExtPt Fp} (h : Loose q r) : Good q r := by
  have hs : ∀ {a : Fe51} {x : Fp}, R 4 a x → Sim.S a x := fun k => ⟨k.2.1.mono (by norm_num), k.2.2⟩
  exact { h with s1 := hs (h.X.add h.Y), s2 := hs (h.Y.add h.X), s3 := hs (h.Y.sub h.X) }

/-- The default build and the ideal field. -/
theorem run51 (prog : List Cmd) :
    OptRel (fun (r : Mem Fe51 × List Ed.Out) (r' : Mem Fp × List Ed.Out) => r.2 = r'.2 ∧ AllSim (fun _ => false) r.1 r'.1)
      (run (Mem.init : Mem Fe51) prog) (run (Mem.init : Mem Fp) prog) := by
  have h := grun_free (F := Fe51) good51 (Fe51.RV.of1 (by decide +kernel) (LawfulField.eval_feMinusI (F := Fe51)))
    (fun h h' => (Fe51.RV.isNonZero (Fe51.RV.sub h h' (by norm_num))).1) prog allSim_init
  rw [grun_eq (F := Fe51) (fun _ => rfl), grun_eq (F := Fp) (fun _ => rfl)] at h
  exact h

theorem goodAsm {q : ExtPt Asm.FeAsm} {r : ExtPt Fp} (h : Loose q r) : Good q r := by
  have hs : ∀ {a : Asm.FeAsm} {x : Fp}, R 4 a x → Sim.S a x := fun k => ⟨k.2.1.mono (by decide), k.2.2⟩
  exact { h with s1 := hs (h.X.add h.Y), s2 := hs (h.Y.add h.X), s3 := hs (h.Y.sub h.X) }

/-- The build for amd64 and the ideal field. -/
theorem runAsm (prog : List Cmd) :
    OptRel (fun (r : Mem Asm.FeAsm × List Ed.Out) (r' : Mem Fp × List Ed.Out) => r.2 = r'.2 ∧ AllSim (fun _ => false) r.1 r'.1)
      (run (Mem.init : Mem Asm.FeAsm) prog) (run (Mem.init : Mem Fp) prog) := by
  have h := grun_free (F := Asm.FeAsm) goodAsm
    (Proofs.Asm.RA.of1 (by decide +kernel) (LawfulField.eval_feMinusI (F := Asm.FeAsm)))
    (fun h h' => (Proofs.Asm.RA.isNonZero (Proofs.Asm.RA.sub h h' (by norm_num))).1) prog allSim_init
  rw [grun_eq (F := Asm.FeAsm) (fun _ => rfl), grun_eq (F := Fp) (fun _ => rfl)] at h
  exact h

/-- The build for amd64 and the default build. -/
theorem agreeAsm (prog : List Cmd) :
    OptRel (fun (r : Mem Asm.FeAsm × List Ed.Out) (r' : Mem Fe51 × List Ed.Out) => r.2 = r'.2 ∧
        ∃ m, AllSim (fun _ => false) r.1 m ∧ AllSim (fun _ => false) r'.1 m)
      (run (Mem.init : Mem Asm.FeAsm) prog) (run (Mem.init : Mem Fe51) prog) := by
  have h := runAsm prog
  have h' := run51 prog
  cases h0 : run (Mem.init : Mem Fp) prog with
  | none =>
    rw [h0] at h h'
    cases h1 : run (Mem.init : Mem Asm.FeAsm) prog with
    | some _ => rw [h1] at h; exact h.elim
    | none =>
      cases h2 : run (Mem.init : Mem Fe51) prog with
      | some _ => rw [h2] at h'; exact h'.elim
      | none => trivial
  | some s =>
    rw [h0] at h h'
    cases h1 : run (Mem.init : Mem Asm.FeAsm) prog with
    | none => rw [h1] at h; exact h.elim
    | some r =>
      cases h2 : run (Mem.init : Mem Fe51) prog with
      | none => rw [h2] at h'; exact h'.elim
      | some r' =>
        rw [h1] at h
        rw [h2] at h'
        exact ⟨h.1.trans h'.1.symm, s.1, h.2, h'.2⟩

/-- The generic build and the default build. -/
theorem agree25 (prog : List Cmd) (hs : Fine prog = true) :
    OptRel (fun (r : Mem Fe25 × List Ed.Out) (r' : Mem Fe51 × List Ed.Out) => r.2 = r'.2 ∧
        ∃ raw m, AllSim raw r.1 m ∧ AllSim (fun _ => false) r'.1 m)
      (grun (Mem.init : Mem Fe25) prog) (run (Mem.init : Mem Fe51) prog) := by
  have h := grun_all (F := Fe25) rMinusI25 fsim25.diff prog allSim_init hs
  have h' := run51 prog
  rw [grun_eq (F := Fp) (fun _ => rfl)] at h
  cases h0 : run (Mem.init : Mem Fp) prog with
  | none =>
    rw [h0] at h h'
    cases h1 : grun (Mem.init : Mem Fe25) prog with
    | some _ => rw [h1] at h; exact h.elim
    | none =>
      cases h2 : run (Mem.init : Mem Fe51) prog with
      | some _ => rw [h2] at h'; exact h'.elim
      | none => trivial
  | some s =>
    rw [h0] at h h'
    cases h1 : grun (Mem.init : Mem Fe25) prog with
    | none => rw [h1] at h; exact h.elim
    | some r =>
      cases h2 : run (Mem.init : Mem Fe51) prog with
      | none => rw [h2] at h'; exact h'.elim
      | some r' =>
        rw [h1] at h
        rw [h2] at h'
        obtain ⟨e, raw, k⟩ := h
        obtain ⟨e', k'⟩ := h'
        exact ⟨e.trans e'.symm, raw, s.1, k, k'⟩

end Ristretto.Proofs.Ed
