import Verif.Proofs.ObliviousMachine
import Verif.Proofs.ObliviousSha
import Verif.Proofs.Oblivious25
import Verif.Props.Timing
import Verif.Props.Generic

/-!
# C79: the constant-time methods are straight-line programs on machine words

Every constant-time method is written again in a language of expressions in machine words (`Model/Oblivious.lean`): constants, variables, `+`, `-`,
`*`, `&`, `|`, `^`, shifts by constants and conversions.  There is no conditional, no comparison and no indexing by a word in this language, so a term of it is executed
the same way whatever the words are.  What is proved is that these terms compute what the code computes, on all data.
-/

namespace Ristretto.Props
open Model Model.Obl Proofs
set_option autoImplicit false

/-- **C79**: take any program of constant-time calls on any memory.  Running the *shape* of the program (methods, variables and lengths, no data) on
unknown words gives expressions; their values, at the words of the memory and of the arguments, are what the program leaves in memory and returns. -/
theorem C79_programs (e : SEnv FeS) (e' : Env Fe51) (he : SameEnv e e') (m m' : Mem Fe51) (prog : List Cmd) (outs : List Out)
    (hm : ∀ t, TabShape (m.tabs t)) (hc : ∀ c ∈ prog, constTime c = true) (hx : run e' m prog = some (m', outs)) :
    ∃ sm souts, srun e 0 SMem.init (prog.map shape) (verdicts prog outs) = some (sm, souts) ∧
      valMem (Ristretto.words FeS m prog) sm = m' ∧ souts.map (valOut (Ristretto.words FeS m prog)) = outs :=
  Obl.programs_val e e' he m m' prog outs hm hc hx

/-- **C79**: the expressions are the same for all data.  For every list of public parts of calls (and of successes and failures) there are expressions that give
the memory and the results of every program with these public parts, on every memory. -/
theorem C79_uniform (e : SEnv FeS) (e' : Env Fe51) (he : SameEnv e e') (cs : List Cmd) (vs : List (Option Out)) :
    ∃ (sm : SMem FeS) (souts : List SOut), ∀ (m m' : Mem Fe51) (prog : List Cmd) (outs : List Out), (∀ t, TabShape (m.tabs t)) →
      (∀ c ∈ prog, constTime c = true) → prog.map shape = cs → run e' m prog = some (m', outs) → verdicts prog outs = vs →
      m' = valMem (Ristretto.words FeS m prog) sm ∧ outs = souts.map (valOut (Ristretto.words FeS m prog)) :=
  Obl.uniform_val e e' he cs vs

/-- **C79**: the symbolic machine does not look at the data in a call: giving it the call or only the public part of the call makes no difference. -/
theorem C79_shape {K : Type} [SymOps K] (e : SEnv K) (k : Nat) (m : SMem K) (v : Option Out) (c : Cmd) : sexec e k m v (shape c) = sexec e k m v c := by
  cases c <;> simp only [shape, sexec, List.length_replicate]

/-- **C79**: nor at success or failure, except in `SetBytesStrict`. -/
theorem C79_verdict {K : Type} [SymOps K] (e : SEnv K) (k : Nat) (m : SMem K) (v v' : Option Out) (c : Cmd) (hc : ∀ s b, c ≠ .sSetBytesStrict s b) :
    sexec e k m v c = sexec e k m v' c := by
  cases c
  case sSetBytesStrict s b => exact absurd rfl (hc s b)
  all_goals rfl

/-- **C79** for `Point.ScalarMult`: one list of twenty expressions in 28 unknown words gives the coordinates of the product, for all points and all scalars. -/
theorem C79_scalarMult : ∃ x : ExtPt FeS, ∀ (p : ExtPt Fe51) (s : Scalar),
    valPt (Ristretto.words FeS { pts := fun _ => p, scs := fun _ => s, tabs := fun _ => [] } []) x = Point.scalarMult p s :=
  ⟨_, Obl.scalarMult_val⟩

/-- **C79** for `Abs`, `Sqrt` and `Inverse` of field elements, which the public API does not offer: the same five expressions in the five words of the
argument for all arguments (the argument is a coordinate of a point). -/
theorem C79_field : ∃ x y z : FeS, ∀ p : ExtPt Fe51,
    Sym.val (Ristretto.words FeS { pts := fun _ => p, scs := fun _ => scZero, tabs := fun _ => [] } []) x = feAbs p.X ∧
    Sym.val (Ristretto.words FeS { pts := fun _ => p, scs := fun _ => scZero, tabs := fun _ => [] } []) y = feSqrt p.X ∧
    Sym.val (Ristretto.words FeS { pts := fun _ => p, scs := fun _ => scZero, tabs := fun _ => [] } []) z = feInverse p.X :=
  ⟨_, _, _, Obl.field_val⟩

/-- SHA-2 and the base table of the package are given by expressions as well. -/
theorem C79_env : SameEnv goSEnv (goEnv Sha2.sha512) := Obl.go_same

/-- **C79** for the package with the hash functions it uses: nothing is assumed about hash functions. -/
theorem C79_package (cs : List Cmd) (vs : List (Option Out)) :
    ∃ (sm : SMem FeS) (souts : List SOut), ∀ (m m' : Mem Fe51) (prog : List Cmd) (outs : List Out), (∀ t, TabShape (m.tabs t)) →
      (∀ c ∈ prog, constTime c = true) → prog.map shape = cs → run (goEnv Sha2.sha512) m prog = some (m', outs) → verdicts prog outs = vs →
      m' = valMem (Ristretto.words FeS m prog) sm ∧ outs = souts.map (valOut (Ristretto.words FeS m prog)) :=
  C79_uniform goSEnv (goEnv Sha2.sha512) C79_env cs vs

/-! The generic build (ten limbs of type `int32`). -/

/-- **C79** for the generic build. -/
theorem C79_programs_generic (e : SEnv FeT) (e' : Env Fe25) (he : SameEnv e e') (m m' : Mem Fe25) (prog : List Cmd) (outs : List Out)
    (hm : ∀ t, TabShape (m.tabs t)) (hc : ∀ c ∈ prog, constTime c = true) (hx : run e' m prog = some (m', outs)) :
    ∃ sm souts, srun e 0 SMem.init (prog.map shape) (verdicts prog outs) = some (sm, souts) ∧
      valMem (Ristretto.words FeT m prog) sm = m' ∧ souts.map (valOut (Ristretto.words FeT m prog)) = outs :=
  Obl.programs_val e e' he m m' prog outs hm hc hx

/-- **C79** for the generic build with the hash functions and the table it uses: the expressions are the same for all data. -/
theorem C79_package_generic (cs : List Cmd) (vs : List (Option Out)) :
    ∃ (sm : SMem FeT) (souts : List SOut), ∀ (m m' : Mem Fe25) (prog : List Cmd) (outs : List Out), (∀ t, TabShape (m.tabs t)) →
      (∀ c ∈ prog, constTime c = true) → prog.map shape = cs → run (genericEnv Sha2.sha512) m prog = some (m', outs) → verdicts prog outs = vs →
      m' = valMem (Ristretto.words FeT m prog) sm ∧ outs = souts.map (valOut (Ristretto.words FeT m prog)) :=
  Obl.uniform_val genericSEnv (genericEnv Sha2.sha512) Obl.generic_same cs vs

/-- **C79** for `Point.ScalarMult` of the generic build: one list of forty expressions in 48 unknown words. -/
theorem C79_scalarMult_generic : ∃ x : ExtPt FeT, ∀ (p : ExtPt Fe25) (s : Scalar),
    valPt (Ristretto.words FeT { pts := fun _ => p, scs := fun _ => s, tabs := fun _ => [] } []) x = Point.scalarMult p s :=
  ⟨_, Obl.scalarMult_val⟩

/-- Diffie-Hellman: the shared secret is given by the same 32 expressions whatever the key and whatever was received. -/
example : ∃ x : List U8, ∀ (k : Bytes 64) (b : Bytes 32) (m' : Mem Fe51) (outs : List Out),
    run (goEnv Sha2.sha512) Mem.init [.sRand 0 k, .pSetBytes 0 b, .pScalarMult 1 0 0, .pBytes 1] = some (m', outs) →
    outs[3]? = some (.bytes (x.map (ev (Ristretto.words FeS Mem.init [.sRand 0 k, .pSetBytes 0 b, .pScalarMult 1 0 0, .pBytes 1])))) := by
  refine ⟨(ristretto (Obl.pointScalarMult (setRistrettoI (K := FeS) (argArray 1 32)).1 (Sc.setReduced (argArray 0 64)))).toList, ?_⟩
  intro k b m' outs hx
  obtain ⟨sm, souts, h1, -, h3⟩ := C79_programs goSEnv (goEnv Sha2.sha512) C79_env Mem.init m' _ outs (by intro t; simp [Mem.init, TabShape])
    (by simp [constTime]) hx
  have hl : outs.length = 4 := by
    simp only [run, exec, Option.bind_eq_bind, Option.bind_some, Option.some.injEq, Prod.mk.injEq] at hx
    rw [← hx.2]; rfl
  simp only [List.map_cons, List.map_nil, shape] at h1
  match outs, hl with
  | [o1, o2, o3, o4], _ =>
    simp only [verdicts, List.zipWith_cons_cons, List.zipWith_nil_left, srun, sexec, Option.bind_eq_bind, Option.bind_some,
      Option.some.injEq, Prod.mk.injEq] at h1
    obtain ⟨-, rfl⟩ := h1
    simp only [List.map_cons, List.cons.injEq] at h3
    simp only [List.getElem?_cons_succ, List.getElem?_cons_zero]
    rw [← h3.2.2.2.1]
    simp only [valOut, SMem.setPt, SMem.setSc, Nat.reduceEqDiff, if_true, if_false, one_ne_zero]

/-- And every program of constant-time calls runs. -/
example (k : Bytes 64) (b : Bytes 32) : ∃ r, run (goEnv Sha2.sha512) Mem.init [.sRand 0 k, .pSetBytes 0 b, .pScalarMult 1 0 0, .pBytes 1] = some r :=
  constTime_run (goEnv Sha2.sha512) _ _ (by simp [constTime])

/-- In the generic build as well, from its initial memory. -/
example (k : Bytes 64) (b : Bytes 32) : (∃ r, run (genericEnv Sha2.sha512) Mem.init [.sRand 0 k, .pSetBytes 0 b, .pScalarMult 1 0 0, .pBytes 1] = some r) ∧
    ∀ t, TabShape ((Mem.init : Mem Fe25).tabs t) :=
  ⟨constTime_run (genericEnv Sha2.sha512) _ _ (by simp [constTime]), by intro t; simp [Mem.init, TabShape]⟩

end Ristretto.Props
