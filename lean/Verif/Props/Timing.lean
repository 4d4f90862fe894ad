import Verif.Proofs.Leak
import Verif.Props.Machine
import Verif.Model.BaseTable25

/-!
# C46: secrets do not influence control flow or memory accesses

In the model of `Verif.Model.Leak` an observer sees the outcome of every branch and every array index.
-/

namespace Ristretto.Props
open Model Proofs
set_option autoImplicit false

section
variable {F : Type} [FieldOps F]

/-- **C46**: the functions that record events compute what the model of the code computes. -/
theorem C46_values (e : Env F) (m : Mem F) (prog : List Cmd) : (runL e m prog).val = run e m prog :=
  Leak.runL_val e prog m

/-- **C46** for `Point.ScalarMult`: all scalars and all points give the same events. -/
theorem C46_scalarMult (q q' : ExtPt F) (s s' : Bytes 32) : (scalarMultL q s).trace = (scalarMultL q' s').trace :=
  Leak.scalarMultL_trace q q' s s'

/-- **C46** for `Point.ScalarMultTable` and `Point.ScalarMultBase`: all scalars and all tables. -/
theorem C46_scalarMultTable (t t' : Table F) (s s' : Bytes 32) (h : TabShape t) (h' : TabShape t') :
    (tableScalarMultL t s).trace = (tableScalarMultL t' s').trace :=
  Leak.tableScalarMultL_trace t t' s s' (h.trans h'.symm)

/-- **C46** for `Point.LizardInto` and `Point.Lizard`: the events depend only on whether there is no, one or more than one
preimage. -/
theorem C46_lizard : ∃ f g : Point.LizErr → List Ev, ∀ (sha256 : List UInt8 → Bytes 32) (p : ExtPt F) (buf : Bytes 16),
    (lizardIntoL sha256 p buf).trace = f (Point.lizardInto sha256 p buf).2 ∧
    (lizardL sha256 p).trace = g (Point.lizardInto sha256 p (Vector.replicate 16 0)).2 :=
  ⟨fun x => Leak.lizTrace ++ Leak.lizEnd x, fun x => Leak.lizTrace ++ Leak.lizEnd x ++ [.branch (x = .nil)],
    fun sha256 p buf => ⟨Leak.lizardIntoL_trace sha256 p buf, Leak.lizardL_trace sha256 p⟩⟩

/-- What a call of a constant-time method reveals, as a function of what is public. -/
def callTrace (F : Type) [FieldOps F] : Cmd → Option Out → List Ev
  | .pScalarMult .., _ => (scalarMultL (ExtPt.zero : ExtPt F) (Vector.replicate 32 0)).trace
  | .pScalarMultBase .., _ | .pScalarMultTable .., _ =>
    (tableScalarMultL (List.replicate 32 (List.replicate 8 (NielsPt.zero : NielsPt F))) (Vector.replicate 32 0)).trace
  | .pDerive _ data, _ | .pDeriveDalek _ data, _ | .sDerive _ data, _ | .sDeriveShort _ data, _ => [.len data.length]
  | .pLizardInto .., some (.lizardInto x _) => Leak.lizTrace ++ Leak.lizEnd x
  | .pUnmarshalBinary _ data, some (.bool b) =>
    if data.length = 32 then [.len data.length, .branch false, .call "SetBytes", .branch !b]
    else [.len data.length, .branch true]
  | .sUnmarshalBinary _ data, _ => [.len data.length, .branch (data.length ≠ 32)]
  | .sSetBytesStrict .., some (.bool b) => [.branch !b]
  | _, _ => []

theorem tabShape_replicate : TabShape (List.replicate 32 (List.replicate 8 (NielsPt.zero : NielsPt F))) := by
  simp [TabShape]

/-- **C46** for one call: what the call of a constant-time method reveals is a function of its public part: method,
variables, lengths, and success or failure. -/
theorem C46_call : ∃ f : Cmd → Option Out → List Ev, ∀ (e : Env F) (m m' : Mem F) (c : Cmd) (o : Out),
    TabShape e.baseTab → (∀ t, TabShape (m.tabs t)) → constTime c = true → exec e m c = some (m', o) →
    (execL e m c).trace = f (shape c) (verdict c o) := by
  refine ⟨callTrace F, fun e m m' c o he hm hc hx => ?_⟩
  cases c
  case pScalarMult p q s => simpa [execL, shape, callTrace] using C46_scalarMult _ _ _ _
  case pScalarMultBase p s =>
    simpa [execL, shape, callTrace] using C46_scalarMultTable _ _ _ _ he tabShape_replicate
  case pScalarMultTable p t s =>
    simpa [execL, shape, callTrace] using C46_scalarMultTable _ _ _ _ (hm t) tabShape_replicate
  case pDerive p data => simp [execL, shape, callTrace]
  case pDeriveDalek p data => simp [execL, shape, callTrace]
  case sDerive p data => simp [execL, shape, callTrace]
  case sDeriveShort p data => simp [execL, shape, callTrace]
  case pLizardInto p buf =>
    simp only [exec, Option.some.injEq, Prod.mk.injEq] at hx
    obtain ⟨-, rfl⟩ := hx
    simp only [execL, shape, callTrace, verdict, Leak.trace_bind, Leak.lizardIntoL_trace, Leak.trace_pure,
      List.append_nil]
  case pUnmarshalBinary p data =>
    simp only [exec, Option.some.injEq, Prod.mk.injEq, Point.unmarshalBinary] at hx
    obtain ⟨-, rfl⟩ := hx
    simp only [execL, shape, callTrace, verdict, Leak.trace_bind, Leak.trace_emit, Leak.trace_test, Leak.val_test,
      List.length_replicate]
    by_cases h : data.length = 32
    · simp [h]
    · simp [h]
  case sUnmarshalBinary p data => simp [execL, shape, callTrace]
  case sSetBytesStrict s buf =>
    simp only [exec, Option.some.injEq, Prod.mk.injEq] at hx
    obtain ⟨-, rfl⟩ := hx
    simp [execL, shape, callTrace, verdict]
  all_goals first
    | (exfalso; revert hc; simp only [constTime]; decide)
    | (simp only [execL, shape, callTrace])

theorem tableRow_length (cp : ExtPt F) : ∀ (n : ℕ) (c : ExtPt F), (tableRow cp n c).1.length = n
  | 0, _ => rfl
  | n + 1, c => by simp only [tableRow, List.length_cons, tableRow_length cp n]

theorem tableLoop_shape : ∀ (n : ℕ) (cp : ExtPt F), (tableLoop n cp).map List.length = List.replicate n 8
  | 0, _ => rfl
  | n + 1, cp => by
    simp only [tableLoop, List.map_cons, tableRow_length, tableLoop_shape n, List.replicate_succ]

theorem tabShape_exec (e : Env F) (m m' : Mem F) (c : Cmd) (o : Out) (hm : ∀ t, TabShape (m.tabs t))
    (hx : exec e m c = some (m', o)) : ∀ t, TabShape (m'.tabs t) := by
  intro k
  cases c <;> simp only [exec, Option.some.injEq, Prod.mk.injEq, Option.bind_eq_bind, Option.bind_eq_some_iff] at hx
  case tCompute t p =>
    obtain ⟨rfl, -⟩ := hx
    simp only [Mem.setTab]
    split
    · exact tableLoop_shape 32 _
    · exact hm k
  all_goals first
    | (obtain ⟨rfl, -⟩ := hx; exact hm k)
    | (obtain ⟨r, -, rfl, -⟩ := hx; exact hm k)

/-- **C46** for programs: everything a program of constant-time calls reveals is a function of its public part: the
methods, the variables, the lengths of slices, and success or failure of the calls that may fail. -/
theorem C46_programs : ∃ f : List Cmd → List (Option Out) → List Ev, ∀ (e : Env F) (m m' : Mem F) (prog : List Cmd)
    (outs : List Out), TabShape e.baseTab → (∀ t, TabShape (m.tabs t)) → (∀ c ∈ prog, constTime c = true) →
    run e m prog = some (m', outs) →
    (runL e m prog).trace = f (prog.map shape) (verdicts prog outs) := by
  obtain ⟨f, hf⟩ := C46_call (F := F)
  refine ⟨fun cs vs => (List.zipWith f cs vs).flatten, ?_⟩
  intro e m m' prog outs he hm hc hx
  induction prog generalizing m outs with
  | nil => rfl
  | cons c cs ih =>
    simp only [run, Option.bind_eq_bind, Option.bind_eq_some_iff] at hx
    obtain ⟨⟨m1, o⟩, h1, ⟨m2, os⟩, h2, h3⟩ := hx
    simp only [Option.some.injEq, Prod.mk.injEq] at h3
    obtain ⟨rfl, rfl⟩ := h3
    have h1' : (execL e m c).val = some (m1, o) := (Leak.execL_val e m c).trans h1
    have h2' : (runL e m1 cs).val = some (m2, os) := (Leak.runL_val e cs m1).trans h2
    simp only [runL, Leak.trace_bind, h1', h2', Leak.trace_pure, List.append_nil, verdicts, List.zipWith_cons_cons,
      List.map_cons, List.flatten_cons]
    rw [hf e m m1 c o he hm (hc c (by simp)) h1,
      ih m1 os (tabShape_exec e m m1 c o hm h1) (fun c' h' => hc c' (by simp [h'])) h2]
    rfl

theorem constTime_some (e : Env F) (m : Mem F) (c : Cmd) (hc : constTime c = true) : ∃ r, exec e m c = some r := by
  cases c <;> first
    | (exfalso; revert hc; simp only [constTime]; decide)
    | exact ⟨_, rfl⟩

theorem constTime_run (e : Env F) : ∀ (prog : List Cmd) (m : Mem F), (∀ c ∈ prog, constTime c = true) →
    ∃ r, run e m prog = some r
  | [], m, _ => ⟨_, rfl⟩
  | c :: cs, m, hc => by
    obtain ⟨⟨m1, o⟩, h1⟩ := constTime_some e m c (hc c (by simp))
    obtain ⟨⟨m2, os⟩, h2⟩ := constTime_run e cs m1 (fun c' h' => hc c' (by simp [h']))
    exact ⟨(m2, o :: os), by simp [run, h1, h2]⟩

/-- **C46**, two runs: the same constant-time calls on different secrets, with the same successes and failures, cannot be told
apart. -/
theorem C46_two_runs (e e' : Env F) (m m' : Mem F) (prog prog' : List Cmd)
    (he : TabShape e.baseTab) (he' : TabShape e'.baseTab)
    (hm : ∀ t, TabShape (m.tabs t)) (hm' : ∀ t, TabShape (m'.tabs t)) (hc : ∀ c ∈ prog, constTime c = true)
    (hc' : ∀ c ∈ prog', constTime c = true) (hs : prog.map shape = prog'.map shape)
    (hv : (run e m prog).map (fun r => verdicts prog r.2) = (run e' m' prog').map (fun r => verdicts prog' r.2)) :
    (runL e m prog).trace = (runL e' m' prog').trace := by
  obtain ⟨f, hf⟩ := C46_programs (F := F)
  obtain ⟨⟨m1, outs⟩, hr⟩ := constTime_run e prog m hc
  obtain ⟨⟨m1', outs'⟩, hr'⟩ := constTime_run e' prog' m' hc'
  rw [hr, hr', Option.map_some, Option.map_some, Option.some.injEq] at hv
  rw [hf e m m1 prog outs he hm hc hr, hf e' m' m1' prog' outs' he' hm' hc' hr', hs, hv]

/-- Diffie-Hellman with two different secret keys. -/
example (e : Env F) (he : TabShape e.baseTab) (b : Bytes 32) (k k' : Bytes 64) :
    (runL e Mem.init [.sRand 0 k, .pSetBytes 0 b, .pScalarMult 1 0 0, .pScalarMultBase 2 0, .pBytes 1]).trace =
    (runL e Mem.init [.sRand 0 k', .pSetBytes 0 b, .pScalarMult 1 0 0, .pScalarMultBase 2 0, .pBytes 1]).trace :=
  C46_two_runs e e Mem.init Mem.init _ _ he he
    (by intro t; simp [Mem.init, TabShape]) (by intro t; simp [Mem.init, TabShape])
    (by simp [constTime]) (by simp [constTime]) rfl
    (by simp only [run, exec, Option.bind_eq_bind, Option.bind_some, Option.map_some, verdicts, verdict, List.zipWith_cons_cons])

/-- **C46**: the variants documented as not constant-time are not: scalars 0 and 1 give different events, for every point and
every table. -/
theorem C46_public (q : ExtPt F) (t : Table F) (ht : TabShape t) :
    (varTimeScalarMultL q (Vector.replicate 32 0)).trace ≠
      (varTimeScalarMultL q ((Vector.replicate 32 0).set 0 1)).trace ∧
    (tableVarTimeScalarMultL t (Vector.replicate 32 0)).trace ≠
      (tableVarTimeScalarMultL t ((Vector.replicate 32 0).set 0 16)).trace := by
  constructor
  · intro h
    have h0 : (varTimeScalarMultL q (Vector.replicate 32 0)).trace[4]? = some (.branch true) := rfl
    have h1 : (varTimeScalarMultL q ((Vector.replicate 32 0).set 0 1)).trace[4]? = some (.branch false) := rfl
    rw [h, h1] at h0
    simp at h0
  · intro h
    match t, ht with
    | row :: rows, _ =>
      have h0 : (tableVarTimeScalarMultL (row :: rows) (Vector.replicate 32 0)).trace[96]? = some (.branch true) := rfl
      have h1 : (tableVarTimeScalarMultL (row :: rows) ((Vector.replicate 32 0).set 0 16)).trace[96]? =
        some (.branch false) := rfl
      rw [h, h1] at h0
      simp at h0

end

/-- The base tables of the builds and Go's zero values have the shape asked for. -/
example : TabShape baseTable ∧ TabShape baseTable25 ∧ (∀ t, TabShape ((Mem.init : Mem Fe51).tabs t)) := by
  refine ⟨?_, ?_, ?_⟩
  · unfold TabShape; decide +kernel
  · unfold TabShape; decide +kernel
  · intro t; simp [Mem.init, TabShape]

end Ristretto.Props
