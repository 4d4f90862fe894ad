import Verif.Proofs.EdAgree
import Verif.Props.Generic
import Verif.Props.GenericFields

/-!
# C88: programs over package edwards25519 in the generic build

`Ed.Fine` is a static check: no point that was decoded, or reduced in place by `ToJacobiQuarticRistretto` or
`RistrettoElligator2Inverse`, is the second operand of an addition or subtraction of extended points, is multiplied by a
scalar, or is turned into a table before it has been recomputed.  Everything else in the package may be called in any order.
-/

namespace Ristretto.Props
open Model Proofs Ed
set_option autoImplicit false

/-- The variables of a program over the generic field implementation hold what the abstract state says. -/
structure EdMeans25 (m : Model.Ed.Mem Fe25) (a : Ed.AState) : Prop where
  fe : ∀ i, feVal25 (m.fes i) = a.fes i
  ext : ∀ i (P : Even), a.exts i = some P →
    Proj P (feVal25 (m.exts i).X) (feVal25 (m.exts i).Y) (feVal25 (m.exts i).Z) (feVal25 (m.exts i).T)
  completed : ∀ i (P : Even), a.cpls i = some P →
    Compl P (feVal25 (m.cpls i).X) (feVal25 (m.cpls i).Y) (feVal25 (m.cpls i).Z) (feVal25 (m.cpls i).T)
  projective : ∀ i (P : Even), a.prjs i = some P → feVal25 (m.prjs i).Z ≠ 0 ∧
    feVal25 (m.prjs i).X = (P : EPoint).x * feVal25 (m.prjs i).Z ∧ feVal25 (m.prjs i).Y = (P : EPoint).y * feVal25 (m.prjs i).Z
  niels : ∀ i (P : Even), a.niels i = some P → feVal25 (m.niels i).YPlusX = (P : EPoint).y + (P : EPoint).x ∧
    feVal25 (m.niels i).YMinusX = (P : EPoint).y - (P : EPoint).x ∧
    feVal25 (m.niels i).XY2D = 2 * d * (P : EPoint).x * (P : EPoint).y
  jacobi : ∀ i s t, a.jacs i = some (s, t) → feVal25 (m.jacs i).S = s ∧ feVal25 (m.jacs i).T = t

theorem edMeans25 {raw : ℕ → Bool} {m : Model.Ed.Mem Fe25} {m' : Model.Ed.Mem Fp} {a : Ed.AState}
    (h : Proofs.Ed.AllSim raw m m') (h' : Proofs.Ed.Denotes m' a) : EdMeans25 m a where
  fe i := (h.fe i).2.trans (h'.fe i).2
  ext i P hP := by
    have := (h'.ext i P hP).proj
    rw [(h.ext i).X.2, (h.ext i).Y.2, (h.ext i).Z.2, (h.ext i).T.2]
    exact this
  completed i P hP := by
    have := (h'.cpl i P hP).compl
    rw [(h.cpl i).X.2, (h.cpl i).Y.2, (h.cpl i).Z.2, (h.cpl i).T.2]
    exact this
  projective i P hP := by
    have := h'.prj i P hP
    rw [(h.prj i).X.2, (h.prj i).Y.2, (h.prj i).Z.2]
    exact ⟨this.z, this.x, this.y⟩
  niels i P hP := by
    have := h'.nls i P hP
    rw [(h.nls i).P.2, (h.nls i).M.2, (h.nls i).D.2]
    exact ⟨this.yp, this.ym, this.xy⟩
  jacobi i s t hst := by
    have := (h'.jac i s t hst).1
    rw [(h.jac i).S.2, (h.jac i).T.2]
    exact ⟨this.hS, this.hT⟩

/-- **C88.** In the generic build a `Fine` program over the methods of package edwards25519 that does not panic computes in
GF(2^255-19) and on the curve: what it returns and the final contents of its variables are possible for `AStep`, call after
call. -/
theorem C88_program (prog : List Model.Ed.Cmd) (hp : Ed.Fine prog = true) (m : Model.Ed.Mem Fe25) (outs : List Model.Ed.Out)
    (h : Model.Ed.grun Model.Ed.Mem.init prog = some (m, outs)) :
    ∃ a, Ed.ARun Ed.AState.init prog a outs ∧ EdMeans25 m a := by
  obtain ⟨raw, m', a, h1, h2, h3⟩ := (Proofs.Ed.safe25 prog hp).2 m outs h
  exact ⟨a, h3, edMeans25 h1 h2⟩

/-- **C88** (panics): a `Fine` program panics in the generic build if and only if it multiplies in variable time with a
table, by a scalar whose top digit is above 8. -/
theorem C88_panics (prog : List Model.Ed.Cmd) (hp : Ed.Fine prog = true) :
    Model.Ed.grun (Model.Ed.Mem.init : Model.Ed.Mem Fe25) prog = none ↔
      ∃ t e s, Model.Ed.Cmd.tVarTimeScalarMult t e s ∈ prog ∧ 8 < Spec.EdRange.topDigit 16 63 (leVal s) := by
  refine (Proofs.Ed.safe25 prog hp).1.trans ((Proofs.Ed.run_none_iff prog Proofs.Ed.denotes_init).trans ?_)
  constructor
  · rintro ⟨c, hc, hp⟩
    cases c
    case tVarTimeScalarMult t e s => exact ⟨t, e, s, hc, hp⟩
    all_goals exact hp.elim
  · rintro ⟨t, e, s, hc, hp⟩
    exact ⟨_, hc, hp⟩

/-- **C88** (no overflow).  The same programs on numbers that remember a loss (C86): no element held by a variable of the
program is ever lost, and the results are the same, whatever would have been read from a lost element. -/
theorem C88_exact (junk : Bytes 32) (prog : List Model.Ed.Cmd) (hp : Ed.Fine prog = true) (m : Model.Ed.Mem (Fe25W junk))
    (outs : List Model.Ed.Out) (h : Model.Ed.grun Model.Ed.Mem.init prog = some (m, outs)) :
    (∃ a, Ed.ARun Ed.AState.init prog a outs) ∧ (∀ i, (m.fes i).isFine = true) ∧
    (∀ i, (m.exts i).X.isFine = true ∧ (m.exts i).Y.isFine = true ∧ (m.exts i).Z.isFine = true ∧ (m.exts i).T.isFine = true) ∧
    ∀ i, (m.cpls i).X.isFine = true ∧ (m.cpls i).Y.isFine = true ∧ (m.cpls i).Z.isFine = true ∧ (m.cpls i).T.isFine = true := by
  obtain ⟨raw, m', a, h1, h2, h3⟩ := (Proofs.Ed.safeW junk prog hp).2 m outs h
  exact ⟨⟨a, h3⟩, fun i => J25.isFine_of (h1.fe i),
    fun i => ⟨J25.isFine_of (h1.ext i).X, J25.isFine_of (h1.ext i).Y, J25.isFine_of (h1.ext i).Z, J25.isFine_of (h1.ext i).T⟩,
    fun i => ⟨J25.isFine_of (h1.cpl i).X, J25.isFine_of (h1.cpl i).Y, J25.isFine_of (h1.cpl i).Z, J25.isFine_of (h1.cpl i).T⟩⟩

/-- **C88** (agreement).  A `Fine` program does the same in the generic build and in the default build: it panics in both or in
neither, returns the same, also for variables that hold no points of the curve, and all coordinates stand for the same
numbers in the end. -/
theorem C88_agree (prog : List Model.Ed.Cmd) (hp : Ed.Fine prog = true) :
    (Model.Ed.grun (Model.Ed.Mem.init : Model.Ed.Mem Fe25) prog).map Prod.snd =
      (Model.Ed.run (Model.Ed.Mem.init : Model.Ed.Mem Fe51) prog).map Prod.snd ∧
    ∀ m m' outs outs', Model.Ed.grun (Model.Ed.Mem.init : Model.Ed.Mem Fe25) prog = some (m, outs) →
      Model.Ed.run (Model.Ed.Mem.init : Model.Ed.Mem Fe51) prog = some (m', outs') → ∀ i,
        feVal25 (m.fes i) = feVal (m'.fes i) ∧
        feVal25 (m.exts i).X = feVal (m'.exts i).X ∧ feVal25 (m.exts i).Y = feVal (m'.exts i).Y ∧
        feVal25 (m.exts i).Z = feVal (m'.exts i).Z ∧ feVal25 (m.exts i).T = feVal (m'.exts i).T ∧
        feVal25 (m.cpls i).X = feVal (m'.cpls i).X ∧ feVal25 (m.cpls i).Y = feVal (m'.cpls i).Y ∧
        feVal25 (m.cpls i).Z = feVal (m'.cpls i).Z ∧ feVal25 (m.cpls i).T = feVal (m'.cpls i).T ∧
        feVal25 (m.prjs i).X = feVal (m'.prjs i).X ∧ feVal25 (m.prjs i).Y = feVal (m'.prjs i).Y ∧
        feVal25 (m.prjs i).Z = feVal (m'.prjs i).Z ∧
        feVal25 (m.niels i).YPlusX = feVal (m'.niels i).YPlusX ∧ feVal25 (m.niels i).YMinusX = feVal (m'.niels i).YMinusX ∧
        feVal25 (m.niels i).XY2D = feVal (m'.niels i).XY2D ∧
        feVal25 (m.jacs i).S = feVal (m'.jacs i).S ∧ feVal25 (m.jacs i).T = feVal (m'.jacs i).T := by
  have h := Proofs.Ed.agree25 prog hp
  constructor
  · cases h1 : Model.Ed.grun (Model.Ed.Mem.init : Model.Ed.Mem Fe25) prog <;>
      cases h2 : Model.Ed.run (Model.Ed.Mem.init : Model.Ed.Mem Fe51) prog <;> rw [h1, h2] at h
    · rfl
    · exact h.elim
    · exact h.elim
    · exact congrArg some h.1
  · intro m m' outs outs' h1 h2 i
    rw [h1, h2] at h
    obtain ⟨-, raw, m₀, k, k'⟩ := h
    exact ⟨(k.fe i).2.trans (k'.fe i).2.2.symm, (k.ext i).X.2.trans (k'.ext i).X.2.2.symm,
      (k.ext i).Y.2.trans (k'.ext i).Y.2.2.symm, (k.ext i).Z.2.trans (k'.ext i).Z.2.2.symm,
      (k.ext i).T.2.trans (k'.ext i).T.2.2.symm,
      (k.cpl i).X.2.trans (k'.cpl i).X.2.2.symm, (k.cpl i).Y.2.trans (k'.cpl i).Y.2.2.symm,
      (k.cpl i).Z.2.trans (k'.cpl i).Z.2.2.symm, (k.cpl i).T.2.trans (k'.cpl i).T.2.2.symm,
      (k.prj i).X.2.trans (k'.prj i).X.2.2.symm, (k.prj i).Y.2.trans (k'.prj i).Y.2.2.symm,
      (k.prj i).Z.2.trans (k'.prj i).Z.2.2.symm, (k.nls i).P.2.trans (k'.nls i).P.2.2.symm,
      (k.nls i).M.2.trans (k'.nls i).M.2.2.symm, (k.nls i).D.2.trans (k'.nls i).D.2.2.symm,
      (k.jac i).S.2.trans (k'.jac i).S.2.2.symm,
      (k.jac i).T.2.trans (k'.jac i).T.2.2.symm⟩

/-- **C88** (agreement).  Every program does the same in the build for amd64 and in the default build: it panics in both or
in neither, returns the same, also for variables that hold no points of the curve, and all coordinates stand for the same
numbers in the end. -/
theorem C88_agreeAsm (prog : List Model.Ed.Cmd) :
    (Model.Ed.run (Model.Ed.Mem.init : Model.Ed.Mem Asm.FeAsm) prog).map Prod.snd =
      (Model.Ed.run (Model.Ed.Mem.init : Model.Ed.Mem Fe51) prog).map Prod.snd ∧
    ∀ m m' outs outs', Model.Ed.run (Model.Ed.Mem.init : Model.Ed.Mem Asm.FeAsm) prog = some (m, outs) →
      Model.Ed.run (Model.Ed.Mem.init : Model.Ed.Mem Fe51) prog = some (m', outs') → ∀ i,
        feVal (m.fes i) = feVal (m'.fes i) ∧
        feVal (m.exts i).X = feVal (m'.exts i).X ∧ feVal (m.exts i).Y = feVal (m'.exts i).Y ∧
        feVal (m.exts i).Z = feVal (m'.exts i).Z ∧ feVal (m.exts i).T = feVal (m'.exts i).T ∧
        feVal (m.cpls i).X = feVal (m'.cpls i).X ∧ feVal (m.cpls i).Y = feVal (m'.cpls i).Y ∧
        feVal (m.cpls i).Z = feVal (m'.cpls i).Z ∧ feVal (m.cpls i).T = feVal (m'.cpls i).T ∧
        feVal (m.prjs i).X = feVal (m'.prjs i).X ∧ feVal (m.prjs i).Y = feVal (m'.prjs i).Y ∧
        feVal (m.prjs i).Z = feVal (m'.prjs i).Z ∧
        feVal (m.niels i).YPlusX = feVal (m'.niels i).YPlusX ∧ feVal (m.niels i).YMinusX = feVal (m'.niels i).YMinusX ∧
        feVal (m.niels i).XY2D = feVal (m'.niels i).XY2D ∧
        feVal (m.jacs i).S = feVal (m'.jacs i).S ∧ feVal (m.jacs i).T = feVal (m'.jacs i).T := by
  have h := Proofs.Ed.agreeAsm prog
  constructor
  · cases h1 : Model.Ed.run (Model.Ed.Mem.init : Model.Ed.Mem Asm.FeAsm) prog <;>
      cases h2 : Model.Ed.run (Model.Ed.Mem.init : Model.Ed.Mem Fe51) prog <;> rw [h1, h2] at h
    · rfl
    · exact h.elim
    · exact h.elim
    · exact congrArg some h.1
  · intro m m' outs outs' h1 h2 i
    rw [h1, h2] at h
    obtain ⟨-, m₀, k, k'⟩ := h
    exact ⟨(k.fe i).2.2.trans (k'.fe i).2.2.symm, (k.ext i).X.2.2.trans (k'.ext i).X.2.2.symm,
      (k.ext i).Y.2.2.trans (k'.ext i).Y.2.2.symm, (k.ext i).Z.2.2.trans (k'.ext i).Z.2.2.symm,
      (k.ext i).T.2.2.trans (k'.ext i).T.2.2.symm,
      (k.cpl i).X.2.2.trans (k'.cpl i).X.2.2.symm, (k.cpl i).Y.2.2.trans (k'.cpl i).Y.2.2.symm,
      (k.cpl i).Z.2.2.trans (k'.cpl i).Z.2.2.symm, (k.cpl i).T.2.2.trans (k'.cpl i).T.2.2.symm,
      (k.prj i).X.2.2.trans (k'.prj i).X.2.2.symm, (k.prj i).Y.2.2.trans (k'.prj i).Y.2.2.symm,
      (k.prj i).Z.2.2.trans (k'.prj i).Z.2.2.symm, (k.nls i).P.2.2.trans (k'.nls i).P.2.2.symm,
      (k.nls i).M.2.2.trans (k'.nls i).M.2.2.symm, (k.nls i).D.2.2.trans (k'.nls i).D.2.2.symm,
      (k.jac i).S.2.2.trans (k'.jac i).S.2.2.symm,
      (k.jac i).T.2.2.trans (k'.jac i).T.2.2.symm⟩

/-- A `Fine` program: decode, add the base point on the right, a table of the sum, multiplications with and without the
table, a comparison with the decoded point, the inverse of Elligator and a point on the Jacobi quartic. -/
example (b : Bytes 32) (s : Bytes 32) : Ed.Fine [.eSetRistretto 0 b, .eBase 1, .eAdd 2 0 1, .tCompute 0 2, .tScalarMult 0 3 s,
    .eScalarMult 4 2 s, .eEqualsI 3 0, .eRistretto 0, .eInverse 3, .eToJacobi 3 0, .jDual 1 0, .cSetJacobi 0 1, .eSetCompleted 5 0,
    .fSetBytes 0 b, .cElligator 1 0, .pSetCompleted 0 1, .cDoubleProjective 2 0, .nSetExtended 0 0,
    .cAddExtendedNiels 0 3 0] = true := rfl

/-- What the specification allows for "decode, add to the base point, encode". -/
theorem addBase_spec {b : Bytes 32} {x y : ℕ} (hxy : (x = 0 ∧ y = 1) ∨ (x = 1 ∧ y = 0)) {a : Ed.AState} {c : Bytes 32}
    (h : Ed.ARun Ed.AState.init [.eSetRistretto 0 b, .eBase 1, .eAdd 2 x y, .eRistretto 2] a
      [.bool true, .unit, .unit, .bytes c]) :
    ∃ g, decode b = some g ∧ c = encode (g + Ed.classOf Ed.baseE) := by
  cases h with | cons h1 h =>
  cases h with | cons h2 h =>
  cases h with | cons h3 h =>
  cases h with | cons h4 h =>
  rcases h1 with ⟨P, hP, -, rfl, -⟩ | ⟨-, -, h1⟩
  swap
  · cases h1
  obtain ⟨rfl, -⟩ := h2
  obtain ⟨rfl, -⟩ := h3
  obtain ⟨-, c', e, h4⟩ := h4
  injection e with e
  subst e
  refine ⟨_, hP, ?_⟩
  rcases hxy with ⟨rfl, rfl⟩ | ⟨rfl, rfl⟩
  · exact h4 (P + Ed.baseE) rfl
  · rw [h4 (Ed.baseE + P) rfl, add_comm]
    rfl

/-- **C88** (the restriction matters).  A program that is not `Fine`, because it adds a decoded point on the right, returns
something the specification rules out. -/
theorem C88_decoded : ∃ (prog : List Model.Ed.Cmd) (m : Model.Ed.Mem Fe25) (outs : List Model.Ed.Out), Ed.Fine prog = false ∧
    Model.Ed.grun Model.Ed.Mem.init prog = some (m, outs) ∧ ¬ ∃ a, Ed.ARun Ed.AState.init prog a outs := by
  refine ⟨[.eSetRistretto 0 enc7, .eBase 1, .eAdd 2 1 0, .eRistretto 2], _,
    [.bool dec7.2, .unit, .unit, .bytes (ExtPt.add ExtPt.base dec7.1).ristretto], rfl, rfl, ?_⟩
  rintro ⟨a, h⟩
  rw [generic_right.1] at h
  obtain ⟨g, hg, e⟩ := addBase_spec (Or.inr ⟨rfl, rfl⟩) h
  obtain ⟨a', h', -⟩ := C88_program [.eSetRistretto 0 enc7, .eBase 1, .eAdd 2 0 1, .eRistretto 2] rfl _
    [.bool dec7.2, .unit, .unit, .bytes (ExtPt.add dec7.1 ExtPt.base).ristretto] rfl
  rw [generic_right.1] at h'
  obtain ⟨g', hg', e'⟩ := addBase_spec (Or.inl ⟨rfl, rfl⟩) h'
  obtain rfl : g = g' := Option.some.inj (hg.symm.trans hg')
  have := generic_wrong
  rw [e, ← e', generic_right.2] at this
  revert this
  decide

end Ristretto.Props
