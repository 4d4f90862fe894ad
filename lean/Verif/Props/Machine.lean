import Verif.Proofs.Machine
import Verif.Proofs.Repr
import Verif.Proofs.LizardSha
import Verif.Props.Group

/-!
# C13, C41–C43, C47: programs over the API

A program is a list of method calls (`Cmd`, Model/Machine.lean) on numbered variables.  The receiver may
coincide with an argument in every call.  `run` executes it with the model of the code, `arun`
(Spec/Machine.lean) on elements of the Ristretto group and of `ℤ/l`.
-/

namespace Ristretto.Props
open Model Proofs
set_option autoImplicit false

/-- The environment of the package: SHA-256, the base point table, and any function for SHA-512. -/
def goEnv (sha512 : List UInt8 → Bytes 64) : Env Fe51 := ⟨Sha256.sha256, sha512, baseTable⟩

/-- A variable that was never set or was the receiver of a failed decoding: all coordinates but `Z`
are zero.  (`Z` can be changed by further operations.) -/
structure IsBlank (q : ExtPt Fe51) : Prop where
  limbX : LimbsLe ptLimb q.X
  limbY : LimbsLe ptLimb q.Y
  limbZ : LimbsLe ptLimb q.Z
  limbT : LimbsLe ptLimb q.T
  x : feVal q.X = 0
  y : feVal q.Y = 0
  t : feVal q.T = 0

/-- The same for the entries of a table. -/
structure IsBlankNiels (e : NielsPt Fe51) : Prop where
  limbP : LimbsLe ptLimb e.YPlusX
  limbM : LimbsLe ptLimb e.YMinusX
  limbD : LimbsLe ptLimb e.XY2D
  p : feVal e.YPlusX = 0
  m : feVal e.YMinusX = 0

def IsBlankTable (t : Table Fe51) : Prop := t.length = 32 ∧ ∀ row ∈ t, row.length = 8 ∧ ∀ e ∈ row, IsBlankNiels e

/-- The memory `m` holds the abstract contents `a`. -/
structure Denotes (m : Mem Fe51) (a : AState) : Prop where
  pts : ∀ k, match a.pts k with | some g => Represents (m.pts k) g | none => IsBlank (m.pts k)
  scs : ∀ k, scVal (m.scs k) < l ∧ (scVal (m.scs k) : ZMod l) = a.scs k
  tabs : ∀ k, match a.tabs k with | some g => TableOf (m.tabs k) g | none => IsBlankTable (m.tabs k)

theorem isBlank_iff {q : ExtPt Fe51} : IsBlank q ↔ Deg q := by
  constructor
  · intro h
    exact ⟨⟨(limbsLe_iff _).1 h.limbX, (limbsLe_iff _).1 h.limbY, (limbsLe_iff _).1 h.limbZ, (limbsLe_iff _).1 h.limbT⟩,
      h.x, h.y, h.t⟩
  · intro h
    exact ⟨(limbsLe_iff _).2 h.bX, (limbsLe_iff _).2 h.bY, (limbsLe_iff _).2 h.bZ, (limbsLe_iff _).2 h.bT, h.x, h.y, h.t⟩

theorem isBlankNiels_iff {q : NielsPt Fe51} : IsBlankNiels q ↔ DegN q := by
  constructor
  · intro h
    exact ⟨(limbsLe_iff _).1 h.limbP, (limbsLe_iff _).1 h.limbM, (limbsLe_iff _).1 h.limbD, h.p, h.m⟩
  · intro h
    exact ⟨(limbsLe_iff _).2 h.bP, (limbsLe_iff _).2 h.bM, (limbsLe_iff _).2 h.bD, h.yp, h.ym⟩

theorem denotes_iff {m : Mem Fe51} {a : AState} : Denotes m a ↔ Rel m a := by
  constructor
  · intro h
    refine ⟨fun k => ?_, fun k => scRel_of (h.scs k).1 (h.scs k).2, fun k => ?_⟩
    · have := h.pts k
      cases hk : a.pts k <;> rw [hk] at this
      · exact isBlank_iff.1 this
      · exact represents_iff.1 this
    · have := h.tabs k
      cases hk : a.tabs k <;> rw [hk] at this
      · exact ⟨this.1, fun row hr => ⟨(this.2 row hr).1, fun e he => isBlankNiels_iff.1 ((this.2 row hr).2 e he)⟩⟩
      · exact tableOf_iff.1 this
  · intro h
    refine ⟨fun k => ?_, fun k => ⟨(h.scs k).lt, (h.scs k).cast⟩, fun k => ?_⟩
    · have := h.pts k
      cases hk : a.pts k <;> rw [hk] at this
      · exact isBlank_iff.2 this
      · exact represents_iff.2 this
    · have := h.tabs k
      cases hk : a.tabs k <;> rw [hk] at this
      · exact ⟨this.1, fun row hr => ⟨(this.2 row hr).1, fun e he => isBlankNiels_iff.2 ((this.2 row hr).2 e he)⟩⟩
      · exact tableOf_iff.2 this

/-- Go's zero values are blank points, zero scalars and blank tables. -/
theorem init_denotes : Denotes Mem.init AState.init := denotes_iff.2 rel_init

theorem sim_cases (sha512 : List UInt8 → Bytes 64) (prog : List Cmd) (m : Mem Fe51) (a : AState) (h : Denotes m a) :
    (run (goEnv sha512) m prog = none ∧ arun Sha256.sha256 sha512 a prog = none) ∨
    ∃ m' a' outs, run (goEnv sha512) m prog = some (m', outs) ∧ arun Sha256.sha256 sha512 a prog = some (a', outs) ∧
      Denotes m' a' := by
  have := run_sim (goEnv sha512) sha256_avoids holds_baseTable prog m a (denotes_iff.1 h)
  cases h1 : run (goEnv sha512) m prog with
  | none =>
    cases h2 : arun Sha256.sha256 sha512 a prog with
    | none => exact Or.inl ⟨rfl, rfl⟩
    | some y => rw [h1] at this; simp only [goEnv] at this; rw [h2] at this; exact this.elim
  | some x =>
    cases h2 : arun Sha256.sha256 sha512 a prog with
    | none => rw [h1] at this; simp only [goEnv] at this; rw [h2] at this; exact this.elim
    | some y =>
      rw [h1] at this; simp only [goEnv] at this; rw [h2] at this
      obtain ⟨m', os⟩ := x
      obtain ⟨a', os'⟩ := y
      obtain ⟨hr, ho⟩ := this
      exact Or.inr ⟨m', a', os, rfl, by rw [ho], denotes_iff.2 hr⟩

/-- **C42.** The outputs of every program are those of the abstract machine (`none`: both panic). -/
theorem C42_refinement (sha512 : List UInt8 → Bytes 64) (prog : List Cmd) :
    (run (goEnv sha512) Mem.init prog).map Prod.snd =
      (arun Sha256.sha256 sha512 AState.init prog).map Prod.snd := by
  rcases sim_cases sha512 prog _ _ init_denotes with ⟨h1, h2⟩ | ⟨m', a', outs, h1, h2, -⟩ <;> rw [h1, h2] <;> rfl

/-- **C42**, from any state: the outputs are those of the abstract machine, and the states after it
correspond again. -/
theorem C42_simulation (sha512 : List UInt8 → Bytes 64) (prog : List Cmd) (m : Mem Fe51) (a : AState)
    (h : Denotes m a) :
    (run (goEnv sha512) m prog).map Prod.snd = (arun Sha256.sha256 sha512 a prog).map Prod.snd ∧
    ∀ m' outs, run (goEnv sha512) m prog = some (m', outs) →
      ∃ a', arun Sha256.sha256 sha512 a prog = some (a', outs) ∧ Denotes m' a' := by
  rcases sim_cases sha512 prog _ _ h with ⟨h1, h2⟩ | ⟨m', a', outs, h1, h2, h3⟩
  · rw [h1, h2]
    exact ⟨rfl, fun _ _ h => by cases h⟩
  · rw [h1, h2]
    exact ⟨rfl, fun _ _ h => by cases h; exact ⟨a', rfl, h3⟩⟩

/-- **C42**: outputs depend only on the group elements held, not on their coordinates. -/
theorem C42_representation_independent (sha512 : List UInt8 → Bytes 64) (prog : List Cmd) (m n : Mem Fe51)
    (a : AState) (hm : Denotes m a) (hn : Denotes n a) :
    (run (goEnv sha512) m prog).map Prod.snd = (run (goEnv sha512) n prog).map Prod.snd := by
  rw [(C42_simulation sha512 prog m a hm).1, (C42_simulation sha512 prog n a hn).1]

/-- A program with aliasing whose outputs the abstract machine tells: `B + B = 2B ≠ B`. -/
example (sha512 : List UInt8 → Bytes 64) : (run (goEnv sha512) Mem.init
    [.pBase 0, .pBase 2, .pAdd 1 0 0, .pDouble 0 0, .pEquals 0 1, .pEquals 0 2, .sOne 0, .sAdd 0 0 0, .sNeg 0 0, .sNeg 0 0,
      .sBigInt 0]).map Prod.snd =
    some [.unit, .unit, .unit, .unit, .bool true, .bool false, .unit, .unit, .unit, .unit, .int 2] := by
  rw [C42_refinement]
  have h : ¬ (baseR + baseR = baseR) := by
    intro h
    have := add_eq_left.1 h
    exact baseR_ne_zero this
  have h2 : ((1 + 1 : ZMod l).cast : ℤ) = 2 := by decide +kernel
  simp [arun, aexec, AState.setPt, AState.setSc, addO, dblO, eqO, two_nsmul, h, h2]

/-- **C13.** Scalars stay reduced, and are what the same program computes in `ℤ/l`. -/
theorem C13_scalar_history (sha512 : List UInt8 → Bytes 64) (prog : List Cmd) (m : Mem Fe51) (outs : List Out)
    (h : run (goEnv sha512) Mem.init prog = some (m, outs)) :
    ∃ a, arun Sha256.sha256 sha512 AState.init prog = some (a, outs) ∧
      ∀ k, scVal (m.scs k) < l ∧ (scVal (m.scs k) : ZMod l) = a.scs k := by
  obtain ⟨a, h1, h2⟩ := (C42_simulation sha512 prog _ _ init_denotes).2 m outs h
  exact ⟨a, h1, h2.scs⟩

/-- **C41.** After every program every point variable holds a valid even point with small limbs, or is
blank. -/
theorem C41_reachable (sha512 : List UInt8 → Bytes 64) (prog : List Cmd) (m : Mem Fe51) (outs : List Out)
    (h : run (goEnv sha512) Mem.init prog = some (m, outs)) (k : ℕ) :
    ((∃ g, Represents (m.pts k) g) ∨ IsBlank (m.pts k)) ∧ ((∃ g, TableOf (m.tabs k) g) ∨ IsBlankTable (m.tabs k)) := by
  obtain ⟨a, -, h2⟩ := (C42_simulation sha512 prog _ _ init_denotes).2 m outs h
  constructor
  · have := h2.pts k
    cases hk : a.pts k <;> rw [hk] at this
    · exact Or.inr this
    · exact Or.inl ⟨_, this⟩
  · have := h2.tabs k
    cases hk : a.tabs k <;> rw [hk] at this
    · exact Or.inr this
    · exact Or.inl ⟨_, this⟩

/-- The calls that decode a point. -/
def decodes : Cmd → Bool
  | .pSetBytes .. | .pUnmarshalBinary .. | .pUnmarshalText .. => true
  | _ => false

/-- The point variables a call reads. -/
def readsPt : Cmd → List ℕ
  | .pSet _ q | .pDouble _ q | .pNeg _ q | .pScalarMult _ q _ | .pPublicScalarMult _ q _ => [q]
  | .pAdd _ q r | .pSub _ q r => [q, r]
  | .pCondSet p q _ => [p, q]
  | .tCompute _ p => [p]
  | _ => []

/-- The tables a call reads. -/
def readsTab : Cmd → List ℕ
  | .pScalarMultTable _ t _ | .pPublicScalarMultTable _ t _ => [t]
  | _ => []

/-- The point variable a call sets. -/
def writesPt : Cmd → List ℕ
  | .pZero p | .pBase p | .pSet p _ | .pAdd p _ _ | .pDouble p _ | .pSub p _ _ | .pNeg p _ | .pSetBytes p _
  | .pSetElligator p _ | .pRand p _ | .pDerive p _ | .pDeriveDalek p _ | .pSetLizard p _ | .pCondSet p _ _
  | .pUnmarshalBinary p _ | .pUnmarshalText p _ | .pScalarMult p _ _ | .pPublicScalarMult p _ _
  | .pScalarMultBase p _ | .pPublicScalarMultBase p _ | .pScalarMultTable p _ _ | .pPublicScalarMultTable p _ _ => [p]
  | _ => []

/-- The table a call sets. -/
def writesTab : Cmd → List ℕ
  | .tCompute t _ => [t]
  | _ => []

/-- Every point variable and every table is set before it is used as an operand, and every decoding
succeeds.  `P` and `T` are the variables and tables set so far. -/
def Disciplined : List ℕ → List ℕ → List Cmd → List Out → Prop
  | P, T, c :: cs, o :: os => (∀ k ∈ readsPt c, k ∈ P) ∧ (∀ k ∈ readsTab c, k ∈ T) ∧
      (decodes c = true → o = .bool true) ∧ Disciplined (writesPt c ++ P) (writesTab c ++ T) cs os
  | _, _, _, _ => True

theorem addO_some {g h : Option RGroup} (hg : g.isSome = true) (hh : h.isSome = true) : (addO g h).isSome = true := by
  cases g <;> cases h <;> simp_all [addO]
theorem subO_some {g h : Option RGroup} (hg : g.isSome = true) (hh : h.isSome = true) : (subO g h).isSome = true := by
  cases g <;> cases h <;> simp_all [subO]
theorem dblO_some {g : Option RGroup} (hg : g.isSome = true) : (dblO g).isSome = true := by
  cases g <;> simp_all [dblO]
theorem negO_some {g : Option RGroup} (hg : g.isSome = true) : (negO g).isSome = true := by
  cases g <;> simp_all [negO]
theorem smulO_some {g : Option RGroup} (s : ZMod l) (hg : g.isSome = true) : (smulO s g).isSome = true := by
  cases g <;> simp_all [smulO]

/-- Disciplined programs never use a blank variable: abstractly. -/
theorem aexec_some {sha256 : List UInt8 → Bytes 32} {sha512 : List UInt8 → Bytes 64} {a a' : AState} {c : Cmd} {o : Out}
    (h : aexec sha256 sha512 a c = some (a', o)) {P T : List ℕ} (hP : ∀ k ∈ P, (a.pts k).isSome = true)
    (hT : ∀ k ∈ T, (a.tabs k).isSome = true) (hr : ∀ k ∈ readsPt c, k ∈ P) (ht : ∀ k ∈ readsTab c, k ∈ T)
    (hd : decodes c = true → o = .bool true) :
    (∀ k ∈ writesPt c ++ P, (a'.pts k).isSome = true) ∧ ∀ k ∈ writesTab c ++ T, (a'.tabs k).isSome = true := by
  have hset : ∀ (p : ℕ) (v : Option RGroup), v.isSome = true →
      (∀ k ∈ [p] ++ P, ((a.setPt p v).pts k).isSome = true) ∧ ∀ k ∈ [] ++ T, ((a.setPt p v).tabs k).isSome = true := by
    intro p v hv
    refine ⟨fun k hk => ?_, fun k hk => hT k hk⟩
    show (if k = p then v else a.pts k).isSome = true
    split
    · exact hv
    · rename_i hne
      rcases List.mem_cons.1 hk with rfl | hk
      · exact absurd rfl hne
      · exact hP k hk
  have hsame : ∀ b : AState, b.pts = a.pts → b.tabs = a.tabs →
      (∀ k ∈ [] ++ P, (b.pts k).isSome = true) ∧ ∀ k ∈ [] ++ T, (b.tabs k).isSome = true := by
    intro b h1 h2
    rw [h1, h2]
    exact ⟨hP, hT⟩
  cases c with
  | pZero p => cases h; exact hset p _ rfl
  | pBase p => cases h; exact hset p _ rfl
  | pSet p q => cases h; exact hset p _ (hP q (hr q (by simp [readsPt])))
  | pAdd p q r =>
    cases h; exact hset p _ (addO_some (hP q (hr q (by simp [readsPt]))) (hP r (hr r (by simp [readsPt]))))
  | pDouble p q => cases h; exact hset p _ (dblO_some (hP q (hr q (by simp [readsPt]))))
  | pSub p q r =>
    cases h; exact hset p _ (subO_some (hP q (hr q (by simp [readsPt]))) (hP r (hr r (by simp [readsPt]))))
  | pNeg p q => cases h; exact hset p _ (negO_some (hP q (hr q (by simp [readsPt]))))
  | pSetBytes p buf => cases h; exact hset p _ (Out.bool.inj (hd rfl))
  | pSetElligator p buf => cases h; exact hset p _ rfl
  | pRand p buf => cases h; exact hset p _ rfl
  | pDerive p data => cases h; exact hset p _ rfl
  | pDeriveDalek p data => cases h; exact hset p _ rfl
  | pSetLizard p data => cases h; exact hset p _ rfl
  | pCondSet p q b =>
    cases h
    refine hset p _ ?_
    split
    · exact hP q (hr q (by simp [readsPt]))
    · exact hP p (hr p (by simp [readsPt]))
  | pUnmarshalBinary p data =>
    unfold aexec at h
    simp only at h
    split at h
    · cases h; exact hset p _ (Out.bool.inj (hd rfl))
    · cases h; exact absurd (Out.bool.inj (hd rfl)) (by decide)
  | pUnmarshalText p txt =>
    unfold aexec at h
    simp only at h
    split at h
    · cases h
    · cases h; exact absurd (Out.bool.inj (hd rfl)) (by decide)
    · cases h; exact hset p _ (Out.bool.inj (hd rfl))
  | pScalarMult p q s => cases h; exact hset p _ (smulO_some _ (hP q (hr q (by simp [readsPt]))))
  | pPublicScalarMult p q s => cases h; exact hset p _ (smulO_some _ (hP q (hr q (by simp [readsPt]))))
  | pScalarMultBase p s => cases h; exact hset p _ (smulO_some _ rfl)
  | pPublicScalarMultBase p s => cases h; exact hset p _ (smulO_some _ rfl)
  | pScalarMultTable p t s => cases h; exact hset p _ (smulO_some _ (hT t (ht t (by simp [readsTab]))))
  | pPublicScalarMultTable p t s => cases h; exact hset p _ (smulO_some _ (hT t (ht t (by simp [readsTab]))))
  | tCompute t p =>
    cases h
    refine ⟨fun k hk => hP k hk, fun k hk => ?_⟩
    show (if k = t then a.pts p else a.tabs k).isSome = true
    split
    · exact hP p (hr p (by simp [readsPt]))
    · rename_i hne
      rcases List.mem_cons.1 hk with rfl | hk
      · exact absurd rfl hne
      · exact hT k hk
  | sSetBytesStrict s buf =>
    unfold aexec at h
    simp only at h
    split at h <;> cases h <;> exact hsame _ rfl rfl
  | sUnmarshalBinary s data =>
    unfold aexec at h
    simp only at h
    split at h <;> cases h <;> exact hsame _ rfl rfl
  | sUnmarshalText s txt =>
    unfold aexec at h
    simp only at h
    split at h
    · cases h
    · cases h; exact hsame _ rfl rfl
    · cases h; exact hsame _ rfl rfl
  | _ => cases h; exact hsame _ rfl rfl

theorem writesTab_eq (c : Cmd) : ∀ k ∈ writesTab c, ∃ p, c = .tCompute k p := by
  intro k hk
  cases c <;> simp [writesTab] at hk
  subst hk
  exact ⟨_, rfl⟩

/-- The variables set by a program. -/
def allWrites (P : List ℕ) : List Cmd → List ℕ
  | [] => P
  | c :: cs => allWrites (writesPt c ++ P) cs

theorem arun_some {sha256 : List UInt8 → Bytes 32} {sha512 : List UInt8 → Bytes 64} (prog : List Cmd) :
    ∀ (a a' : AState) (outs : List Out) (P T : List ℕ), arun sha256 sha512 a prog = some (a', outs) →
    (∀ k ∈ P, (a.pts k).isSome = true) → (∀ k ∈ T, (a.tabs k).isSome = true) → Disciplined P T prog outs →
    ∀ k ∈ allWrites P prog, (a'.pts k).isSome = true := by
  induction prog with
  | nil => intro a a' outs P T h hP _ _; cases h; exact hP
  | cons c cs ih =>
    intro a a' outs P T h hP hT hd
    unfold arun at h
    cases h1 : aexec sha256 sha512 a c with
    | none => rw [h1] at h; cases h
    | some x =>
      obtain ⟨b, o⟩ := x
      rw [h1] at h
      simp only [Option.bind_eq_bind, Option.bind_some] at h
      cases h2 : arun sha256 sha512 b cs with
      | none => rw [h2] at h; cases h
      | some y =>
        obtain ⟨b', os⟩ := y
        rw [h2] at h
        cases h
        obtain ⟨d1, d2, d3, d4⟩ := hd
        obtain ⟨k1, k2⟩ := aexec_some h1 hP hT d1 d2 d3
        exact ih b _ os _ _ h2 k1 k2 d4

/-- **C41** for programs that set every variable before using it and in which every decoding
succeeds: every variable set so far holds a valid even point with small limbs. -/
theorem C41_valid (sha512 : List UInt8 → Bytes 64) (prog : List Cmd) (m : Mem Fe51) (outs : List Out)
    (h : run (goEnv sha512) Mem.init prog = some (m, outs)) (hd : Disciplined [] [] prog outs) :
    ∀ k ∈ allWrites [] prog, ∃ g, Represents (m.pts k) g := by
  intro k hk
  obtain ⟨a, h1, h2⟩ := (C42_simulation sha512 prog _ _ init_denotes).2 m outs h
  have := arun_some prog _ _ _ [] [] h1 (by simp) (by simp) hd k hk
  have h3 := h2.pts k
  cases hk : a.pts k with
  | none => rw [hk] at this; cases this
  | some g => rw [hk] at h3; exact ⟨g, h3⟩

/-! ## El'Gamal -/

/-- The program of the README (README.md:19-44; elgamal_test.go:11-37), where `b1`, `b2`, `b3` are what
`crypto/rand` delivers.  Points: 0 `publicKey`, 1 `p`, 2 `c1`, 3 `c2`, 4 `blinding`, 5 `p2`.
Scalars: 0 `secretKey`, 1 `r`. -/
def elGamal (b1 b2 : Bytes 64) (b3 : Bytes 32) : List Cmd :=
  [.sRand 0 b1, .pScalarMultBase 0 0,
   .pRand 1 b3, .sRand 1 b2, .pScalarMultBase 3 1, .pPublicScalarMult 2 0 1, .pAdd 2 2 1,
   .pScalarMult 4 3 0, .pSub 5 2 4,
   .pBytes 1, .pBytes 5, .pEquals 1 5]

/-- **C43.** For all keys, all randomness and all messages the decrypted point has the bytes of `p`. -/
theorem C43_elgamal_program (sha512 : List UInt8 → Bytes 64) (b1 b2 : Bytes 64) (b3 : Bytes 32) :
    ∃ bytes, (run (goEnv sha512) Mem.init (elGamal b1 b2 b3)).map Prod.snd =
      some [.unit, .unit, .unit, .unit, .unit, .unit, .unit, .unit, .unit, .bytes bytes, .bytes bytes, .bool true] := by
  rw [C42_refinement]
  have key : ∀ (s t : ZMod l) (B g : RGroup), t.val • s.val • B + g - s.val • t.val • B = g := by
    intro s t B g
    rw [← mul_nsmul, ← mul_nsmul, Nat.mul_comm]
    abel
  simp [elGamal, arun, aexec, AState.setPt, AState.setSc, smulO, addO, subO, eqO, key]

/-- **C43** for any message point and any reduced keys. -/
theorem C43_elgamal (sk r : Scalar) (hsk : scVal sk < l) (hr : scVal r < l) (p : ExtPt Fe51) (g : RGroup)
    (hp : Represents p g) (c1' : ExtPt Fe51)
    (h : Point.publicScalarMult (Point.scalarMultTable baseTable sk) r = some c1') :
    ExtPt.ristretto (ExtPt.sub (ExtPt.add c1' p) (Point.scalarMult (Point.scalarMultTable baseTable r) sk)) =
      ExtPt.ristretto p := by
  have hp' := represents_iff.1 hp
  have e1 : ScRel sk (scVal sk : ZMod l) := scRel_of hsk rfl
  have e2 : ScRel r (scVal r : ZMod l) := scRel_of hr rfl
  obtain ⟨x, hx, h1⟩ := (HoldsT.smul holds_baseTable e1.lt255).psmul e2.lt255
  rw [hx] at h
  cases h
  have h2 := (h1.add hp').sub ((HoldsT.smul holds_baseTable e2.lt255).smul e1.lt254)
  rw [h2.bytes, hp'.bytes]
  congr 1
  rw [← mul_nsmul, ← mul_nsmul, Nat.mul_comm]
  abel

/-- The program of the README is disciplined, so C41 applies to it; the encryption is not
trivial: the ciphertext differs from the message for most keys. -/
example (b1 b2 : Bytes 64) (b3 : Bytes 32) (outs : List Out) : Disciplined [] [] (elGamal b1 b2 b3)
    ([.unit, .unit, .unit, .unit, .unit, .unit, .unit, .unit, .unit] ++ outs) := by
  simp [elGamal, Disciplined, readsPt, readsTab, writesPt, writesTab, decodes]
  rcases outs with _ | ⟨o, _ | ⟨o', _ | ⟨o'', os⟩⟩⟩ <;> simp [Disciplined, readsPt, readsTab, writesPt, writesTab, decodes]

/-! ## Blank variables -/

/-- **C47.** A failed decoding reports failure and makes its receiver blank. -/
theorem C47_failed_decode (buf : Bytes 32) (h : (ExtPt.setRistretto (F := Fe51) buf).2 = false) :
    IsBlank (ExtPt.setRistretto (F := Fe51) buf).1 := by
  obtain ⟨h1, h2⟩ := ptRel_setBytes (F := Fe51) buf
  rw [h] at h2
  cases hd : decode buf with
  | some g => rw [hd] at h2; cases h2
  | none => rw [hd] at h1; exact isBlank_iff.2 h1

/-- **C47.** A blank variable is reported equal to every point and has the encoding of the neutral
element. -/
theorem C47_blank_observed (q r : ExtPt Fe51) (g : RGroup) (hq : IsBlank q) (hr : Represents r g) :
    Point.equals q r = true ∧ Point.equals r q = true ∧ Point.equals q q = true ∧
    ExtPt.ristretto q = Vector.replicate 32 0 := by
  have hq' : PtRel q none := isBlank_iff.1 hq
  have hr' : PtRel r (some g) := represents_iff.1 hr
  refine ⟨?_, ?_, ?_, ?_⟩
  · rw [hq'.equals hr']; exact if_pos trivial
  · rw [hr'.equals hq']; exact if_pos trivial
  · rw [hq'.equals hq']; exact if_pos trivial
  · exact bytes_zero (ristretto_x_zero (isBlank_iff.1 hq).toSmall hq.x)

/-- **C47.** Blankness spreads: every sum or difference with a blank operand is blank, and so is every
multiple with a nonzero scalar. -/
theorem C47_blank_absorbs (q r : ExtPt Fe51) (g : RGroup) (s : Scalar) (hq : IsBlank q) (hr : Represents r g)
    (hs : scVal s < l) :
    IsBlank (ExtPt.add q r) ∧ IsBlank (ExtPt.add r q) ∧ IsBlank (ExtPt.sub q r) ∧ IsBlank (ExtPt.sub r q) ∧
    IsBlank (ExtPt.double q) ∧ IsBlank (ExtPt.neg q) ∧ (scVal s ≠ 0 → IsBlank (Point.scalarMult q s)) ∧
    (scVal s = 0 → Represents (Point.scalarMult q s) 0) := by
  have hq' : PtRel q none := isBlank_iff.1 hq
  have hr' : PtRel r (some g) := represents_iff.1 hr
  have hs' : ScRel s (scVal s : ZMod l) := scRel_of hs rfl
  have h := hq'.smul hs'
  refine ⟨isBlank_iff.2 (hq'.add hr'), isBlank_iff.2 (hr'.add hq'), isBlank_iff.2 (hq'.sub hr'),
    isBlank_iff.2 (hr'.sub hq'), isBlank_iff.2 hq'.double, isBlank_iff.2 hq'.neg, fun h0 => ?_, fun h0 => ?_⟩
  · have : smulO (scVal s : ZMod l) none = none := if_neg (fun hz => h0 (hs'.zero_iff.2 hz))
    rw [this] at h
    exact isBlank_iff.2 h
  · have : smulO (scVal s : ZMod l) none = some 0 := if_pos (hs'.zero_iff.1 h0)
    rw [this] at h
    exact represents_iff.2 h

/-- Decoding fails for instance on 32 bytes `255`. -/
example : (ExtPt.setRistretto (F := Fe51) (Vector.replicate 32 255)).2 = false := by decide +kernel
/-- The zero value `var p Point` is blank, and the base point is a point it is reported equal to. -/
example : IsBlank ((Mem.init : Mem Fe51).pts 0) := init_denotes.pts 0

end Ristretto.Props
