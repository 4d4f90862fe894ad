import Mathlib.Data.List.GetD
import Mathlib.Tactic.Ring
import Verif.Model.Leak
import Verif.Spec.Timing

/-! # The functions with events compute the same values, and which events they record -/

namespace Ristretto.Proofs.Leak
open Model
set_option autoImplicit false

section
variable {α β : Type}
@[simp] theorem val_pure (a : α) : (pure a : L α).val = a := rfl
@[simp] theorem trace_pure (a : α) : (pure a : L α).trace = [] := rfl
@[simp] theorem val_bind (x : L α) (f : α → L β) : (x >>= f).val = (f x.val).val := rfl
@[simp] theorem trace_bind (x : L α) (f : α → L β) : (x >>= f).trace = x.trace ++ (f x.val).trace := rfl
@[simp] theorem val_emit (t : List Ev) : (L.emit t).val = () := rfl
@[simp] theorem trace_emit (t : List Ev) : (L.emit t).trace = t := rfl
@[simp] theorem val_test (b : Bool) : (L.test b).val = b := rfl
@[simp] theorem trace_test (b : Bool) : (L.test b).trace = [.branch b] := rfl
end

section
variable {F : Type} [FieldOps F]

/-! ## Values -/

theorem window5SignL_val : ∀ (l : List Int8) (i : ℕ) (carry a : Int8),
    (window5SignL i carry a l).val = window5Sign carry a l
  | [], _, _, _ => rfl
  | b :: l, i, carry, a => by
    simp only [window5SignL, window5Sign, val_bind, val_pure, window5SignL_val l]

theorem computeScalarWindow5L_val (s : Bytes 32) : (computeScalarWindow5L s).val = computeScalarWindow5 s := by
  unfold computeScalarWindow5L computeScalarWindow5
  simp only [val_bind]
  cases window5Raw s with
  | nil => rfl
  | cons a l => exact window5SignL_val l 0 0 a

theorem scalarMultSelectLoopL_val (b : Int32) : ∀ (l : List (ExtPt F)) (j : Int32) (t : ExtPt F),
    (scalarMultSelectLoopL b j l t).val = scalarMultSelectLoop b j l t
  | [], _, _ => rfl
  | e :: l, j, t => by
    simp only [scalarMultSelectLoopL, scalarMultSelectLoop, val_bind]
    exact scalarMultSelectLoopL_val b l _ _

theorem scalarMultSelectL_val (lut : List (ExtPt F)) (b : Int32) :
    (scalarMultSelectL lut b).val = scalarMultSelect lut b := by
  unfold scalarMultSelectL scalarMultSelect
  simp only [val_bind, val_pure, scalarMultSelectLoopL_val]

theorem scalarMultLoopL_val (lut : List (ExtPt F)) : ∀ (l : List Int8) (p : ExtPt F),
    (scalarMultLoopL lut l p).val = l.foldl (scalarMultStep lut) p
  | [], _ => rfl
  | w :: l, p => by
    simp only [scalarMultLoopL, val_bind, scalarMultSelectL_val, List.foldl_cons]
    rw [scalarMultLoopL_val lut l]
    rfl

theorem scalarMultL_val (q : ExtPt F) (s : Bytes 32) : (scalarMultL q s).val = scalarMult q s := by
  unfold scalarMultL scalarMult
  simp only [val_bind, computeScalarWindow5L_val, scalarMultLoopL_val]

theorem nafLoopL_val (x : ℕ → UInt64) : ∀ (fuel pos : ℕ) (carry : UInt64) (naf : ℕ → Int8),
    (nafLoopL x fuel pos carry naf).val = nafLoop x fuel pos carry naf
  | 0, _, _, _ => rfl
  | fuel + 1, pos, carry, naf => by
    simp only [nafLoopL, nafLoop, val_bind, val_test]
    by_cases h : pos < 256
    · simp only [h, decide_true, if_true, val_bind]
      by_cases h1 : (carry + (nafBits x pos &&& 31)) &&& 1 == 0
      · simp only [h1, if_true]; exact nafLoopL_val x fuel _ _ _
      · simp only [h1, val_bind, val_test]
        by_cases h2 : carry + (nafBits x pos &&& 31) < 16
        · simp only [h2, decide_true, if_true, val_bind]; exact nafLoopL_val x fuel _ _ _
        · simp only [h2, decide_false]; exact nafLoopL_val x fuel _ _ _
    · simp only [h, decide_false]; rfl

theorem nafTopL_val (naf : ℕ → Int8) : ∀ n, (nafTopL naf n).val = nafTop naf n
  | 0 => rfl
  | n + 1 => by
    simp only [nafTopL, nafTop, val_bind, val_test]
    by_cases h : naf n = 0
    · simp only [h, ne_eq, not_true_eq_false, decide_false]; exact nafTopL_val naf n
    · simp only [h, ne_eq, not_false_eq_true, decide_true, if_true]; rfl

theorem nafSkipL_val (naf : ℕ → Int8) : ∀ (i : ℕ) (cp : ComplPt F), (nafSkipL naf i cp).val = nafSkip naf i cp
  | 0, _ => rfl
  | i + 1, cp => by
    simp only [nafSkipL, nafSkip, val_bind, val_test]
    by_cases h : naf (i + 1) = 0
    · simp only [h, ne_eq, not_true_eq_false, decide_false]; exact nafSkipL_val naf i _
    · simp only [h, ne_eq, not_false_eq_true, decide_true, if_true]; rfl

theorem varTimeDigitL_val (d : Int8) (lut : List (ExtPt F)) (p : ExtPt F) :
    (varTimeDigitL d lut p).val = varTimeDigit d lut p := by
  simp only [varTimeDigitL, varTimeDigit, val_bind, val_test]
  by_cases h : d > 0
  · simp only [h, decide_true, if_true]; rfl
  · simp only [h, decide_false]; rfl

theorem varTimeLoopL_val (naf : ℕ → Int8) (lut : List (ExtPt F)) : ∀ (fuel i : ℕ) (p : ExtPt F),
    (varTimeLoopL naf lut fuel i p).val = varTimeLoop naf lut fuel i p
  | 0, _, _ => rfl
  | fuel + 1, i, p => by
    rw [varTimeLoopL, varTimeLoop]
    simp only [val_bind, varTimeDigitL_val]
    cases varTimeDigit (naf i) lut p with
    | none => rfl
    | some cp =>
      cases i with
      | zero => rfl
      | succ i =>
        simp only [val_bind, nafSkipL_val, Option.bind_eq_bind, Option.bind_some, val_test]
        by_cases h : naf (nafSkip naf i (ComplPt.doubleProjective cp.toProjective)).1 = 0
        · simp only [h, decide_true, if_true]; rfl
        · simp only [h, decide_false]; exact varTimeLoopL_val naf lut fuel _ _

theorem varTimeScalarMultL_val (q : ExtPt F) (s : Bytes 32) :
    (varTimeScalarMultL q s).val = varTimeScalarMult q s := by
  unfold varTimeScalarMultL varTimeScalarMult computeScalar5NAF
  simp only [val_bind, nafLoopL_val, nafTopL_val]
  cases nafTop (nafLoop (nafWord s) 256 0 0 fun _ => 0) 256 with
  | none => rfl
  | some i => exact varTimeLoopL_val _ _ _ _ _

theorem window4SignL_val : ∀ (l : List Int8) (i : ℕ) (carry a : Int8),
    (window4SignL i carry a l).val = window4Sign carry a l
  | [], _, _, _ => rfl
  | b :: l, i, carry, a => by
    simp only [window4SignL, window4Sign, val_bind, val_pure, window4SignL_val l]

theorem computeScalarWindow4L_val (s : Bytes 32) : (computeScalarWindow4L s).val = computeScalarWindow4 s := by
  unfold computeScalarWindow4L computeScalarWindow4
  simp only [val_bind]
  cases window4Raw s with
  | nil => rfl
  | cons a l => exact window4SignL_val l 0 0 a

theorem selectLoopL_val (b : Int32) : ∀ (l : List (NielsPt F)) (j : Int32) (t : NielsPt F),
    (selectLoopL b j l t).val = selectLoop b j l t
  | [], _, _ => rfl
  | e :: l, j, t => by
    simp only [selectLoopL, selectLoop, val_bind]
    exact selectLoopL_val b l _ _

theorem selectPointL_val (pos : ℕ) (row : List (NielsPt F)) (b : Int32) :
    (selectPointL pos row b).val = selectPoint row b := by
  unfold selectPointL selectPoint
  simp only [val_bind, val_pure, selectLoopL_val]

theorem tableAddLoopL_val : ∀ (t : List (List (NielsPt F))) (l : List Int8) (i : ℕ) (p : ExtPt F),
    (tableAddLoopL i t l p).val = tableAddLoop t l p
  | [], _, _, _ => by simp [tableAddLoopL, tableAddLoop]
  | _ :: _, [], _, _ => by simp [tableAddLoopL, tableAddLoop]
  | row :: t, w :: l, i, p => by
    simp only [tableAddLoopL, tableAddLoop, val_bind, selectPointL_val]
    exact tableAddLoopL_val t l _ _

theorem tableScalarMultL_val (t : Table F) (s : Bytes 32) : (tableScalarMultL t s).val = tableScalarMult t s := by
  unfold tableScalarMultL tableScalarMult
  simp only [val_bind, computeScalarWindow4L_val, tableAddLoopL_val]

theorem tableVarTimeLoopL_val : ∀ (t : List (List (NielsPt F))) (l : List Int8) (i : ℕ) (p : ExtPt F),
    (tableVarTimeLoopL i t l p).val = tableVarTimeLoop t l p
  | [], _, _, _ => by simp [tableVarTimeLoopL, tableVarTimeLoop]
  | _ :: _, [], _, _ => by simp [tableVarTimeLoopL, tableVarTimeLoop]
  | row :: t, w :: l, i, p => by
    simp only [tableVarTimeLoopL, tableVarTimeLoop, val_bind, val_test]
    by_cases h : w.toInt32 = 0
    · simp only [h, decide_true, if_true]; exact tableVarTimeLoopL_val t l _ _
    · simp only [h, decide_false, val_bind]
      cases varTimeSelectPoint row w.toInt32 with
      | none => rfl
      | some np => exact tableVarTimeLoopL_val t l _ _

theorem tableVarTimeScalarMultL_val (t : Table F) (s : Bytes 32) :
    (tableVarTimeScalarMultL t s).val = tableVarTimeScalarMult t s := by
  unfold tableVarTimeScalarMultL tableVarTimeScalarMult
  simp only [val_bind, computeScalarWindow4L_val, tableVarTimeLoopL_val]
  cases tableVarTimeLoop t (odds (computeScalarWindow4 s)) ExtPt.zero with
  | none => rfl
  | some p => exact tableVarTimeLoopL_val _ _ _ _

theorem lizardLoopL_val (sha256 : List UInt8 → Bytes 32) (mask : UInt8) : ∀ (fes : List F) (j : ℕ) (st : Bytes 16 × UInt8),
    (lizardLoopL sha256 mask j fes st).val = Point.lizardLoop sha256 mask j fes st
  | [], _, _ => rfl
  | fe :: fes, j, st => by
    simp only [lizardLoopL, Point.lizardLoop, val_bind]
    exact lizardLoopL_val sha256 mask fes _ _

theorem lizardIntoL_val (sha256 : List UInt8 → Bytes 32) (p : ExtPt F) (buf : Bytes 16) :
    (lizardIntoL sha256 p buf).val = Point.lizardInto sha256 p buf := by
  unfold lizardIntoL Point.lizardInto
  simp only [val_bind, lizardLoopL_val, val_test]
  generalize Point.lizardLoop (F := F) _ _ _ _ _ = st
  by_cases h : st.2 = 1
  · simp only [h, decide_true, if_true]; rfl
  · simp only [h, decide_false, val_bind, val_test]
    by_cases h0 : st.2 = 0
    · simp only [h0, decide_true, if_true]; rfl
    · simp only [h0, decide_false]; rfl

theorem lizardL_val (sha256 : List UInt8 → Bytes 32) (p : ExtPt F) :
    (lizardL sha256 p).val = Point.lizard sha256 p := by
  unfold lizardL Point.lizard
  simp only [val_bind, lizardIntoL_val, val_test]
  generalize Point.lizardInto (F := F) _ _ _ = r
  by_cases h : r.2 = .nil
  · simp only [h, decide_true, if_true]; rfl
  · simp only [h, decide_false]; rfl

theorem execL_val (e : Env F) (m : Mem F) (c : Cmd) : (execL e m c).val = exec e m c := by
  cases c <;> try (simp only [execL]; done)
  case pScalarMult p q s =>
    simp only [execL, exec, val_bind, val_pure, scalarMultL_val, Point.scalarMult]
  case pScalarMultBase p s => simp only [execL, exec, val_bind, val_pure, tableScalarMultL_val, Point.scalarMultTable]
  case pScalarMultTable p t s => simp only [execL, exec, val_bind, val_pure, tableScalarMultL_val, Point.scalarMultTable]
  case pPublicScalarMult p q s =>
    simp only [execL, exec, val_bind, val_pure, varTimeScalarMultL_val, Point.publicScalarMult]
    cases varTimeScalarMult (m.pts q) (m.scs s).bytes <;> rfl
  case pPublicScalarMultBase p s =>
    simp only [execL, exec, val_bind, val_pure, tableVarTimeScalarMultL_val, Point.publicScalarMultTable]
    cases tableVarTimeScalarMult e.baseTab (m.scs s).bytes <;> rfl
  case pPublicScalarMultTable p t s =>
    simp only [execL, exec, val_bind, val_pure, tableVarTimeScalarMultL_val, Point.publicScalarMultTable]
    cases tableVarTimeScalarMult (m.tabs t) (m.scs s).bytes <;> rfl
  case pLizard p => simp only [execL, exec, val_bind, val_pure, lizardL_val]
  case pLizardInto p buf => simp only [execL, exec, val_bind, val_pure, lizardIntoL_val]
  case pUnmarshalBinary p data =>
    simp only [execL, exec, val_bind, val_test, Point.unmarshalBinary]
    by_cases h : data.length = 32
    · simp only [h, ne_eq, not_true_eq_false, decide_false]; rfl
    · simp only [h, ne_eq, not_false_eq_true, decide_true, if_true]; rfl
  case sSetBytesStrict s buf => simp only [execL, exec, val_bind, val_pure]
  case sUnmarshalBinary s data => simp only [execL, val_bind, val_pure]

theorem runL_val (e : Env F) : ∀ (prog : List Cmd) (m : Mem F), (runL e m prog).val = run e m prog
  | [], _ => rfl
  | c :: cs, m => by
    simp only [runL, run, val_bind, execL_val]
    cases exec e m c with
    | none => rfl
    | some r =>
      simp only [val_bind, runL_val e cs]
      cases h : run e r.1 cs with
      | none => simp [h]
      | some r' => simp [h]

/-! ## Events -/

theorem window5SignL_trace : ∀ (l l' : List Int8) (i : ℕ) (c a c' a' : Int8), l.length = l'.length →
    (window5SignL i c a l).trace = (window5SignL i c' a' l').trace
  | [], [], _, _, _, _, _, _ => rfl
  | b :: l, b' :: l', i, c, a, c', a', h => by
    simp only [window5SignL, trace_bind, trace_emit, val_emit, trace_pure]
    rw [window5SignL_trace l l' (i + 1) _ _ _ _ (by simpa using h)]

theorem window5Sign_length : ∀ (l : List Int8) (c a : Int8), (window5Sign c a l).length = l.length + 1
  | [], _, _ => rfl
  | b :: l, c, a => by simp only [window5Sign, List.length_cons, window5Sign_length l]

theorem window5Raw_length (s : Bytes 32) : (window5Raw s).length = 51 := rfl

theorem computeScalarWindow5_length (s : Bytes 32) : (computeScalarWindow5 s).length = 51 := by
  unfold computeScalarWindow5
  have := window5Raw_length s
  cases h : window5Raw s with
  | nil => rw [h] at this; simp at this
  | cons a l => rw [h] at this; simp only [window5Sign_length]; simpa using this

theorem computeScalarWindow5L_trace (s s' : Bytes 32) :
    (computeScalarWindow5L s).trace = (computeScalarWindow5L s').trace := by
  unfold computeScalarWindow5L
  simp only [trace_bind, trace_emit]
  have h := window5Raw_length s
  have h' := window5Raw_length s'
  cases e : window5Raw s with
  | nil => rw [e] at h; simp at h
  | cons a l =>
    cases e' : window5Raw s' with
    | nil => rw [e'] at h'; simp at h'
    | cons a' l' =>
      rw [e] at h; rw [e'] at h'
      exact congrArg _ (window5SignL_trace l l' 0 0 a 0 a' (by simp at h h'; omega))

theorem scalarMultSelectLoopL_trace (b b' : Int32) : ∀ (l l' : List (ExtPt F)) (j : Int32) (t t' : ExtPt F),
    l.length = l'.length → (scalarMultSelectLoopL b j l t).trace = (scalarMultSelectLoopL b' j l' t').trace
  | [], [], _, _, _, _ => rfl
  | e :: l, e' :: l', j, t, t', h => by
    simp only [scalarMultSelectLoopL, trace_bind, trace_emit]
    rw [scalarMultSelectLoopL_trace b b' l l' (j + 1) _ _ (by simpa using h)]

theorem scalarMultSelectL_trace (lut lut' : List (ExtPt F)) (b b' : Int32) (h : lut.length = lut'.length) :
    (scalarMultSelectL lut b).trace = (scalarMultSelectL lut' b').trace := by
  unfold scalarMultSelectL
  simp only [trace_bind, trace_emit, trace_pure]
  rw [scalarMultSelectLoopL_trace b b' lut.tail lut'.tail 1 _ (lut'.headD ExtPt.zero) (by simp [h])]

theorem scalarMultLoopL_trace (lut lut' : List (ExtPt F)) (hl : lut.length = lut'.length) :
    ∀ (l l' : List Int8) (p p' : ExtPt F), l.length = l'.length →
    (scalarMultLoopL lut l p).trace = (scalarMultLoopL lut' l' p').trace
  | [], [], _, _, _ => rfl
  | w :: l, w' :: l', p, p', h => by
    have h' : l.length = l'.length := by simpa using h
    simp only [scalarMultLoopL, trace_bind, trace_emit]
    rw [scalarMultSelectL_trace lut lut' w.toInt32 w'.toInt32 hl, scalarMultLoopL_trace lut lut' hl l l' _ _ h', h']

theorem scalarMultL_trace (q q' : ExtPt F) (s s' : Bytes 32) :
    (scalarMultL q s).trace = (scalarMultL q' s').trace := by
  unfold scalarMultL
  simp only [trace_bind, trace_emit, computeScalarWindow5L_val]
  rw [computeScalarWindow5L_trace s s', scalarMultLoopL_trace (scalarMultLut q) (scalarMultLut q') rfl
    (computeScalarWindow5 s).reverse (computeScalarWindow5 s').reverse ExtPt.zero ExtPt.zero
    (by simp [computeScalarWindow5_length])]

theorem window4SignL_trace : ∀ (l l' : List Int8) (i : ℕ) (c a c' a' : Int8), l.length = l'.length →
    (window4SignL i c a l).trace = (window4SignL i c' a' l').trace
  | [], [], _, _, _, _, _, _ => rfl
  | b :: l, b' :: l', i, c, a, c', a', h => by
    simp only [window4SignL, trace_bind, trace_emit, val_emit, trace_pure]
    rw [window4SignL_trace l l' (i + 1) _ _ _ _ (by simpa using h)]

theorem window4Sign_length : ∀ (l : List Int8) (c a : Int8), (window4Sign c a l).length = l.length + 1
  | [], _, _ => rfl
  | b :: l, c, a => by simp only [window4Sign, List.length_cons, window4Sign_length l]

theorem flatMap_pair_length : ∀ (l : List UInt8),
    (l.flatMap fun b => [i8 (b &&& 15), i8 ((b >>> 4) &&& 15)]).length = 2 * l.length
  | [] => rfl
  | b :: l => by
    rw [List.flatMap_cons, List.length_append, flatMap_pair_length l]
    simp only [List.length_cons, List.length_nil]; omega

theorem window4Raw_length (s : Bytes 32) : (window4Raw s).length = 64 := by
  unfold window4Raw
  rw [flatMap_pair_length]; simp

theorem computeScalarWindow4_length (s : Bytes 32) : (computeScalarWindow4 s).length = 64 := by
  unfold computeScalarWindow4
  have := window4Raw_length s
  cases h : window4Raw s with
  | nil => rw [h] at this; simp at this
  | cons a l => rw [h] at this; simp only [window4Sign_length]; simpa using this

theorem computeScalarWindow4L_trace (s s' : Bytes 32) :
    (computeScalarWindow4L s).trace = (computeScalarWindow4L s').trace := by
  unfold computeScalarWindow4L
  simp only [trace_bind, trace_emit]
  have h := window4Raw_length s
  have h' := window4Raw_length s'
  cases e : window4Raw s with
  | nil => rw [e] at h; simp at h
  | cons a l =>
    cases e' : window4Raw s' with
    | nil => rw [e'] at h'; simp at h'
    | cons a' l' =>
      rw [e] at h; rw [e'] at h'
      exact congrArg _ (window4SignL_trace l l' 0 0 a 0 a' (by simp at h h'; omega))

theorem selectLoopL_trace (b b' : Int32) : ∀ (l l' : List (NielsPt F)) (j : Int32) (t t' : NielsPt F),
    l.length = l'.length → (selectLoopL b j l t).trace = (selectLoopL b' j l' t').trace
  | [], [], _, _, _, _ => rfl
  | e :: l, e' :: l', j, t, t', h => by
    simp only [selectLoopL, trace_bind, trace_emit]
    rw [selectLoopL_trace b b' l l' (j + 1) _ _ (by simpa using h)]

theorem selectPointL_trace (pos : ℕ) (row row' : List (NielsPt F)) (b b' : Int32) (h : row.length = row'.length) :
    (selectPointL pos row b).trace = (selectPointL pos row' b').trace := by
  unfold selectPointL
  simp only [trace_bind, trace_emit, trace_pure]
  rw [selectLoopL_trace _ (b' - (((-(negative b')) &&& b') <<< 1)) row row' 0 _ NielsPt.zero h]

theorem tableAddLoopL_trace : ∀ (t t' : List (List (NielsPt F))) (l l' : List Int8) (i : ℕ) (p p' : ExtPt F),
    t.map List.length = t'.map List.length → l.length = l'.length →
    (tableAddLoopL i t l p).trace = (tableAddLoopL i t' l' p').trace
  | [], [], _, _, _, _, _, _, _ => by simp [tableAddLoopL]
  | _ :: _, _ :: _, [], [], _, _, _, _, _ => by simp [tableAddLoopL]
  | row :: t, row' :: t', w :: l, w' :: l', i, p, p', h, h' => by
    simp only [List.map_cons, List.cons.injEq] at h
    simp only [tableAddLoopL, trace_bind, trace_emit]
    rw [selectPointL_trace i row row' w.toInt32 w'.toInt32 h.1,
      tableAddLoopL_trace t t' l l' (i + 1) _ _ h.2 (by simpa using h')]

theorem odds_length : ∀ (l : List Int8), (odds l).length = l.length / 2
  | [] => by simp [odds]
  | [_] => by simp [odds]
  | _ :: _ :: l => by simp only [odds, List.length_cons, odds_length l]; omega

theorem evens_length : ∀ (l : List Int8), (evens l).length = (l.length + 1) / 2
  | [] => by simp [evens]
  | [_] => by simp [evens]
  | _ :: _ :: l => by simp only [evens, List.length_cons, evens_length l]; omega

theorem tableScalarMultL_trace (t t' : Table F) (s s' : Bytes 32) (h : t.map List.length = t'.map List.length) :
    (tableScalarMultL t s).trace = (tableScalarMultL t' s').trace := by
  unfold tableScalarMultL
  simp only [trace_bind, trace_emit, computeScalarWindow4L_val]
  rw [computeScalarWindow4L_trace s s',
    tableAddLoopL_trace t t' (odds (computeScalarWindow4 s)) (odds (computeScalarWindow4 s')) 0 _ ExtPt.zero h
      (by simp [odds_length, computeScalarWindow4_length]),
    tableAddLoopL_trace t t' (evens (computeScalarWindow4 s)) (evens (computeScalarWindow4 s')) 0 _ ExtPt.zero h
      (by simp [evens_length, computeScalarWindow4_length])]
  rw [tableAddLoopL_trace t' t' (evens (computeScalarWindow4 s')) (evens (computeScalarWindow4 s')) 0 ExtPt.zero _ rfl rfl]

theorem lizardLoopL_trace (sha256 sha256' : List UInt8 → Bytes 32) (mask mask' : UInt8) :
    ∀ (fes fes' : List F) (j : ℕ) (st st' : Bytes 16 × UInt8), fes.length = fes'.length →
    (lizardLoopL sha256 mask j fes st).trace = (lizardLoopL sha256' mask' j fes' st').trace
  | [], [], _, _, _, _ => rfl
  | fe :: fes, fe' :: fes', j, st, st', h => by
    simp only [lizardLoopL, trace_bind, trace_emit]
    rw [lizardLoopL_trace sha256 sha256' mask mask' fes fes' (j + 1) _ _ (by simpa using h)]

/-- The events of the loop of `LizardInto`. -/
def lizTrace : List Ev := .call "RistrettoElligator2Inverse" ::
  (List.range 8).flatMap fun (j : ℕ) =>
    [.index j, .call "BytesInto", .len 16, .call "Sum256", .call "ConstantTimeCompare", .call "ConstantTimeCopy"]

/-- The events at the end of `LizardInto`. -/
def lizEnd : Point.LizErr → List Ev
  | .nil => [.branch true]
  | .noPreimage => [.branch false, .branch true]
  | .multiple => [.branch false, .branch false]

theorem lizardIntoL_trace (sha256 : List UInt8 → Bytes 32) (p : ExtPt F) (buf : Bytes 16) :
    (lizardIntoL sha256 p buf).trace = lizTrace ++ lizEnd (Point.lizardInto sha256 p buf).2 := by
  have hL : ∀ (mask : UInt8) (fes : List F) (st : Bytes 16 × UInt8), fes.length = 8 →
      (lizardLoopL sha256 mask 0 fes st).trace = lizTrace.tail := by
    intro mask fes st h
    rw [lizardLoopL_trace sha256 sha256 mask mask fes (List.replicate 8 FieldOps.feZero) 0 st st (by simpa using h)]
    rfl
  have hlen : (ristrettoElligator2Inverse p).length = 8 := by simp [ristrettoElligator2Inverse]
  unfold lizardIntoL Point.lizardInto
  generalize ristrettoElligator2Inverse p = fes at hlen
  simp only [trace_bind, trace_emit, lizardLoopL_val, val_test, trace_test]
  rw [hL _ _ _ (by simpa using hlen)]
  generalize Point.lizardLoop (F := F) _ _ _ _ _ = st
  by_cases h : st.2 = 1
  · simp only [h, decide_true, if_true]; rfl
  · simp only [h, decide_false, trace_bind, trace_test, val_test]
    by_cases h0 : st.2 = 0
    · simp only [h0, decide_true, if_true]; rfl
    · simp only [h0, decide_false]; rfl

theorem lizardL_trace (sha256 : List UInt8 → Bytes 32) (p : ExtPt F) :
    (lizardL sha256 p).trace = lizTrace ++ lizEnd (Point.lizardInto sha256 p (Vector.replicate 16 0)).2 ++
      [.branch ((Point.lizardInto sha256 p (Vector.replicate 16 0)).2 = .nil)] := by
  unfold lizardL
  simp only [trace_bind, lizardIntoL_val, val_test, trace_test, lizardIntoL_trace]
  generalize Point.lizardInto (F := F) _ _ _ = r
  by_cases h : r.2 = .nil
  · simp only [h, decide_true, if_true]; simp
  · simp only [h, decide_false]; simp

end
end Ristretto.Proofs.Leak
