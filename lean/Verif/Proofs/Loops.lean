import Verif.Model.Loops
import Verif.Spec.Timing
import Verif.Proofs.Digits
import Mathlib.Tactic.IntervalCases
import Mathlib.Tactic.Ring

/-!
# The loops compute what the folds of the model compute, and no index is out of range
-/

set_option autoImplicit false

namespace Ristretto.Proofs.Loops
open Ristretto Ristretto.Model

/-- Close `a = b` by `rfl`, leaving the check to the kernel alone. -/
elab "krfl" : tactic => do
  let g ← Lean.Elab.Tactic.getMainGoal
  let t ← Lean.instantiateMVars (← g.getType)
  match t.eq? with
  | some (_, lhs, _) => g.assign (← Lean.Meta.mkEqRefl lhs)
  | none => throwError "krfl: not an equation"

/-! ## Arrays -/

theorem get_ofNat {α : Type} (a : List α) (i : Nat) : Loops.get a (i : Int) = a[i]? := by
  simp [Loops.get]

theorem put_ofNat {α : Type} (a : List α) (i : Nat) (v : α) (h : i < a.length) :
    Loops.put a (i : Int) v = some (a.set i v) := by
  simp [Loops.put, h]

theorem vec32 {α : Type} (P : Vector α 32 → Prop)
    (h : ∀ a0 a1 a2 a3 a4 a5 a6 a7 a8 a9 a10 a11 a12 a13 a14 a15 a16 a17 a18 a19 a20 a21 a22 a23 a24 a25 a26 a27
      a28 a29 a30 a31 : α, P #v[a0, a1, a2, a3, a4, a5, a6, a7, a8, a9, a10, a11, a12, a13, a14, a15, a16, a17, a18,
        a19, a20, a21, a22, a23, a24, a25, a26, a27, a28, a29, a30, a31]) (s : Vector α 32) : P s := by
  have : s = #v[s[0], s[1], s[2], s[3], s[4], s[5], s[6], s[7], s[8], s[9], s[10], s[11], s[12], s[13], s[14], s[15],
      s[16], s[17], s[18], s[19], s[20], s[21], s[22], s[23], s[24], s[25], s[26], s[27], s[28], s[29], s[30], s[31]] := by
    ext i hi
    interval_cases i <;> rfl
  rw [this]
  apply h

theorem forLt_nat {σ : Type} (n : Nat) (body : Int → σ → Option σ) (st : σ) :
    Loops.forLt 0 (n : Int) 1 body st = Loops.iter 1 body n 0 st := by
  unfold Loops.forLt
  congr 1
  omega

theorem forLt_32 {σ : Type} (body : Int → σ → Option σ) (st : σ) :
    Loops.forLt 0 32 1 body st = Loops.iter 1 body 32 0 st := forLt_nat 32 body st

theorem forLt_8 {σ : Type} (body : Int → σ → Option σ) (st : σ) :
    Loops.forLt 0 8 1 body st = Loops.iter 1 body 8 0 st := forLt_nat 8 body st

/-! ## Windows -/

theorem window5Raw_eq (s : Bytes 32) :
    Loops.window5Raw s.toList (List.replicate 51 0) = some (Model.window5Raw s) := by
  refine vec32 (fun s => Loops.window5Raw s.toList (List.replicate 51 0) = some (Model.window5Raw s)) ?_ s
  intros
  krfl

theorem get_append {α : Type} (pre : List α) (a : α) (rest : List α) (i : Int) (h : i = pre.length) :
    Loops.get (pre ++ a :: rest) i = some a := by
  subst h
  simp [Loops.get]

theorem put_append {α : Type} (pre : List α) (a v : α) (rest : List α) (i : Int) (h : i = pre.length) :
    Loops.put (pre ++ a :: rest) i v = some (pre ++ v :: rest) := by
  subst h
  simp [Loops.put]

theorem get_append1 {α : Type} (pre : List α) (x a : α) (rest : List α) (i : Int) (h : i = pre.length + 1) :
    Loops.get (pre ++ x :: a :: rest) i = some a := by
  have := get_append (pre ++ [x]) a rest i (by simp [h])
  simpa using this

theorem put_append1 {α : Type} (pre : List α) (x a v : α) (rest : List α) (i : Int) (h : i = pre.length + 1) :
    Loops.put (pre ++ x :: a :: rest) i v = some (pre ++ x :: v :: rest) := by
  have := put_append (pre ++ [x]) a v rest i (by simp [h])
  simpa using this

theorem sign5_iter (rest : List Int8) : ∀ (pre : List Int8) (a carry : Int8),
    (do
      let (w, c) ← Loops.iter 1 Loops.sign5Round rest.length pre.length (pre ++ a :: rest, carry)
      Loops.put w (pre.length + rest.length) ((← Loops.get w (pre.length + rest.length)) + c)) =
      some (pre ++ window5Sign carry a rest) := by
  induction rest with
  | nil =>
    intro pre a carry
    simp only [Loops.iter, List.length_nil, Option.bind_eq_bind, Option.bind_some]
    rw [get_append _ _ _ _ (by simp)]
    simp only [Option.bind_some]
    rw [put_append _ _ _ _ _ (by simp)]
    rfl
  | cons b rest ih =>
    intro pre a carry
    simp only [Loops.iter, List.length_cons, Loops.sign5Round, Option.bind_eq_bind, get_append _ _ _ _ rfl,
      put_append _ _ _ _ _ rfl, Option.bind_some, get_append1 _ _ _ _ _ rfl, put_append1 _ _ _ _ _ _ rfl]
    have := ih (pre ++ [((a + carry) &&& (31 : Int8)) - ((((a + carry) &&& 31) >>> 4) <<< 5)]) (b + ((a + carry) >>> 5))
      (((a + carry) &&& 31) >>> 4)
    simp only [List.length_append, List.length_cons, List.length_nil, List.append_assoc, List.cons_append,
      List.nil_append, Option.bind_eq_bind] at this
    simp only [window5Sign]
    rw [← this]
    congr 2
    · push_cast; ring

theorem window5Sign_length (rest : List Int8) : ∀ carry a, (window5Sign carry a rest).length = rest.length + 1 := by
  induction rest with
  | nil => intros; rfl
  | cons b rest ih => intros; simp [window5Sign, ih]

theorem window4Sign_length (rest : List Int8) : ∀ carry a, (window4Sign carry a rest).length = rest.length + 1 := by
  induction rest with
  | nil => intros; rfl
  | cons b rest ih => intros; simp [window4Sign, ih]

theorem window5Raw_length (s : Bytes 32) : (Model.window5Raw s).length = 51 := rfl

theorem computeScalarWindow5_length (s : Bytes 32) : (Model.computeScalarWindow5 s).length = 51 := by
  have h := window5Raw_length s
  unfold Model.computeScalarWindow5
  split
  · next he => rw [he] at h; simp at h
  · next a rest he => rw [he] at h; rw [window5Sign_length]; simpa using h

theorem computeScalarWindow5_eq (s : Bytes 32) :
    Loops.computeScalarWindow5 s.toList (List.replicate 51 0) = some (Model.computeScalarWindow5 s) := by
  have h := window5Raw_length s
  unfold Loops.computeScalarWindow5 Model.computeScalarWindow5
  rw [window5Raw_eq]
  simp only [Option.bind_eq_bind, Option.bind_some]
  split
  · next he => rw [he] at h; simp at h
  · next a rest he =>
    rw [he] at h ⊢
    have hl : rest.length = 50 := by simpa using h
    have := sign5_iter rest [] a 0
    rw [hl] at this
    exact this

theorem sign4_iter (rest : List Int8) : ∀ (pre : List Int8) (a carry : Int8),
    (do
      let (w, c) ← Loops.iter 1 Loops.sign4Round rest.length pre.length (pre ++ a :: rest, carry)
      Loops.put w (pre.length + rest.length) ((← Loops.get w (pre.length + rest.length)) + c)) =
      some (pre ++ window4Sign carry a rest) := by
  induction rest with
  | nil =>
    intro pre a carry
    simp only [Loops.iter, List.length_nil, Option.bind_eq_bind, Option.bind_some]
    rw [get_append _ _ _ _ (by simp)]
    simp only [Option.bind_some]
    rw [put_append _ _ _ _ _ (by simp)]
    rfl
  | cons b rest ih =>
    intro pre a carry
    simp only [Loops.iter, List.length_cons, Loops.sign4Round, Option.bind_eq_bind, get_append _ _ _ _ rfl,
      put_append _ _ _ _ _ rfl, Option.bind_some]
    have := ih (pre ++ [(a + carry) - (((a + carry + 8) >>> (4 : Int8)) <<< (4 : Int8))]) b ((a + carry + 8) >>> (4 : Int8))
    simp only [List.length_append, List.length_cons, List.length_nil, List.append_assoc, List.cons_append,
      List.nil_append, Option.bind_eq_bind] at this
    simp only [window4Sign]
    rw [← this]
    congr 2
    · push_cast; ring

theorem window4Raw_eq (s : Bytes 32) :
    Loops.forLt 0 32 1 (Loops.window4Round s.toList) (List.replicate 64 0) = some (Model.window4Raw s) := by
  refine vec32 (fun s => Loops.forLt 0 32 1 (Loops.window4Round s.toList) (List.replicate 64 0) = some (Model.window4Raw s)) ?_ s
  intros
  krfl

theorem window4Raw_length (s : Bytes 32) : (Model.window4Raw s).length = 64 := by
  refine vec32 (fun s => (Model.window4Raw s).length = 64) ?_ s
  intros
  krfl

theorem computeScalarWindow4_length (s : Bytes 32) : (Model.computeScalarWindow4 s).length = 64 := by
  have h := window4Raw_length s
  unfold Model.computeScalarWindow4
  split
  · next he => rw [he] at h; simp at h
  · next a rest he => rw [he] at h; rw [window4Sign_length]; simpa using h

theorem computeScalarWindow4_eq (s : Bytes 32) :
    Loops.computeScalarWindow4 s.toList (List.replicate 64 0) = some (Model.computeScalarWindow4 s) := by
  have h := window4Raw_length s
  unfold Loops.computeScalarWindow4 Model.computeScalarWindow4
  rw [window4Raw_eq]
  simp only [Option.bind_eq_bind, Option.bind_some]
  split
  · next he => rw [he] at h; simp at h
  · next a rest he =>
    rw [he] at h ⊢
    have hl : rest.length = 63 := by simpa using h
    have := sign4_iter rest [] a 0
    rw [hl] at this
    exact this

/-! ## Constant-time scalar multiplication -/

section
variable {F : Type} [FieldOps F]

theorem scalarMultLut_eq (q : ExtPt F) : Loops.scalarMultLut q = some (Model.scalarMultLut q) := by
  have h2 : (2 : Int) >>> 1 = 1 := rfl
  have h4 : (4 : Int) >>> 1 = 2 := rfl
  have h6 : (6 : Int) >>> 1 = 3 := rfl
  have h8 : (8 : Int) >>> 1 = 4 := rfl
  have h10 : (10 : Int) >>> 1 = 5 := rfl
  have h12 : (12 : Int) >>> 1 = 6 := rfl
  have h14 : (14 : Int) >>> 1 = 7 := rfl
  simp [Loops.scalarMultLut, Loops.forLt, Loops.iter, Loops.get, Loops.put, List.replicate, Model.scalarMultLut, List.set,
    h2, h4, h6, h8, h10, h12, h14]

theorem ofInt_succ (j : Int) : Int32.ofInt (j + 1) = Int32.ofInt j + 1 := by
  rw [Int32.ofInt_add]; rfl

theorem select_iter (b : Int32) (lut : List (ExtPt F)) (rest : List (ExtPt F)) : ∀ (pre : List (ExtPt F)) (t : ExtPt F),
    lut = pre ++ rest →
    Loops.iter 1 (fun j t => do
      let c := equal15 b (Int32.ofInt (-j)) ||| equal15 b (Int32.ofInt j)
      some (t.condSet (← Loops.get lut j) c)) rest.length pre.length t =
    some (scalarMultSelectLoop b (Int32.ofInt pre.length) rest t) := by
  induction rest with
  | nil => intros; rfl
  | cons e rest ih =>
    intro pre t h
    have hg : Loops.get lut pre.length = some e := by rw [h]; exact get_append _ _ _ _ rfl
    simp only [List.length_cons, Loops.iter, hg, Option.bind_eq_bind, Option.bind_some, scalarMultSelectLoop]
    have := ih (pre ++ [e]) (t.condSet e (equal15 b (Int32.ofInt (-pre.length)) ||| equal15 b (Int32.ofInt pre.length)))
      (by simp [h])
    simp only [List.length_append, List.length_cons, List.length_nil, Nat.zero_add, Nat.cast_add, Nat.cast_one,
      Option.bind_eq_bind] at this
    rw [this, ofInt_succ, Int32.ofInt_neg]

theorem scalarMultRound_eq (lut : List (ExtPt F)) (hl : lut.length = 17) (window : List Int8) (i : Int) (p : ExtPt F)
    (w : Int8) (hw : Loops.get window i = some w) :
    Loops.scalarMultRound lut window i p = some (scalarMultStep lut p w) := by
  match lut, hl with
  | l0 :: rest, hl =>
    have hr : rest.length = 16 := by simpa using hl
    have := select_iter w.toInt32 (l0 :: rest) rest [l0] l0 rfl
    rw [hr] at this
    unfold Loops.scalarMultRound
    rw [hw]
    have h0 : Loops.get (l0 :: rest) 0 = some l0 := rfl
    rw [h0]
    simp only [Option.bind_eq_bind, Option.bind_some]
    have hd : ∀ cp : ComplPt F, Loops.forLt 0 4 1 (fun _ cp => some (ComplPt.doubleProjective cp.toProjective)) cp =
      some (ComplPt.doubleProjective (ComplPt.doubleProjective (ComplPt.doubleProjective (ComplPt.doubleProjective
        cp.toProjective).toProjective).toProjective).toProjective) := fun _ => rfl
    rw [hd]
    simp only [Option.bind_some]
    have hf : Loops.forLt 1 17 1 (fun j t => do
      let c := equal15 w.toInt32 (Int32.ofInt (-j)) ||| equal15 w.toInt32 (Int32.ofInt j)
      some (t.condSet (← Loops.get (l0 :: rest) j) c)) l0 = some (scalarMultSelectLoop w.toInt32 1 rest l0) := this
    simp only [Option.bind_eq_bind] at hf
    rw [hf]
    rfl

theorem down_iter (lut : List (ExtPt F)) (hl : lut.length = 17) (window : List Int8) : ∀ (n : Nat) (p : ExtPt F),
    n ≤ window.length →
    Loops.iter (-1) (Loops.scalarMultRound lut window) n ((n : Int) - 1) p =
    some ((window.take n).reverse.foldl (scalarMultStep lut) p) := by
  intro n
  induction n with
  | zero => intros; rfl
  | succ n ih =>
    intro p h
    have hn : n < window.length := by omega
    have hi : ((n + 1 : Nat) : Int) - 1 = (n : Int) := by push_cast; ring
    have hw : Loops.get window (n : Int) = some window[n] := by rw [get_ofNat]; simp [hn]
    rw [hi]
    simp only [Loops.iter, scalarMultRound_eq lut hl window n p _ hw, Option.bind_eq_bind, Option.bind_some]
    have := ih (scalarMultStep lut p window[n]) (by omega)
    rw [show (n : Int) + -1 = n - 1 by ring, this, List.take_succ_eq_append_getElem hn]
    simp only [List.reverse_append, List.reverse_singleton, List.cons_append, List.nil_append, List.foldl_cons]

theorem scalarMult_eq (q : ExtPt F) (s : Bytes 32) : Loops.scalarMult q s.toList = some (Model.scalarMult q s) := by
  have hl := computeScalarWindow5_length s
  have := down_iter (Model.scalarMultLut q) (by simp [Model.scalarMultLut]) (Model.computeScalarWindow5 s) 51 ExtPt.zero (by omega)
  rw [List.take_of_length_le (by omega), show ((51 : Nat) : Int) - 1 = 50 by norm_num] at this
  unfold Loops.scalarMult Loops.forDown
  rw [computeScalarWindow5_eq, scalarMultLut_eq, Option.bind_eq_bind, Option.bind_some, Option.bind_eq_bind,
    Option.bind_some, show ((50 : Int) + 1).toNat = 51 from by decide, this]
  unfold Model.scalarMult
  exact Eq.refl _

/-! ## Tables -/

theorem selectPoint_eq (t : Table F) (pos : Int) (b : Int32) (row : List (NielsPt F)) (h : Loops.get t pos = some row)
    (hr : row.length = 8) : Loops.selectPoint t pos b = some (Model.selectPoint row b) := by
  have hg : ∀ i, Loops.tabGet t pos i = Loops.get row i := by intro i; simp [Loops.tabGet, h]
  unfold Loops.selectPoint
  simp only [hg]
  match row, hr with
  | [r0, r1, r2, r3, r4, r5, r6, r7], _ =>
    simp [Loops.forLt, Loops.iter, Loops.get, Model.selectPoint, selectLoop]

theorem odd_iter (t : Table F) (w : List Int8) (rows : List (List (NielsPt F))) :
    ∀ (pre : Table F) (wpre ws : List Int8) (p : ExtPt F), t = pre ++ rows → w = wpre ++ ws →
      wpre.length = 2 * pre.length → ws.length = 2 * rows.length → (∀ r ∈ rows, r.length = 8) →
    Loops.iter 1 (fun i p => do
      let np ← Loops.selectPoint t i (← Loops.get w (2 * i + 1)).toInt32
      some (ComplPt.addExtendedNiels p np).toExtended) rows.length pre.length p =
    some (tableAddLoop rows (odds ws) p) := by
  induction rows with
  | nil =>
    intro pre wpre ws p _ _ _ h _
    have : ws = [] := by simpa using h
    subst this
    rfl
  | cons row rows ih =>
    intro pre wpre ws p ht hw hlw hl hr
    match ws, hl with
    | a :: b :: ws, hl =>
      have hg : Loops.get t pre.length = some row := by rw [ht]; exact get_append _ _ _ _ rfl
      have hgw : Loops.get w (2 * pre.length + 1) = some b := by rw [hw]; exact get_append1 _ _ _ _ _ (by omega)
      simp only [List.length_cons, Loops.iter, hgw, selectPoint_eq t _ _ row hg (hr row (by simp)), Option.bind_eq_bind,
        Option.bind_some, odds, tableAddLoop]
      have := ih (pre ++ [row]) (wpre ++ [a, b]) ws (ComplPt.addExtendedNiels p (Model.selectPoint row b.toInt32)).toExtended
        (by simp [ht]) (by simp [hw]) (by simp; omega) (by simp at hl; omega) (fun r h => hr r (by simp [h]))
      simp only [List.length_append, List.length_cons, List.length_nil, Nat.zero_add, Nat.cast_add, Nat.cast_one,
        Option.bind_eq_bind] at this
      exact this

theorem even_iter (t : Table F) (w : List Int8) (rows : List (List (NielsPt F))) :
    ∀ (pre : Table F) (wpre ws : List Int8) (p : ExtPt F), t = pre ++ rows → w = wpre ++ ws →
      wpre.length = 2 * pre.length → ws.length = 2 * rows.length → (∀ r ∈ rows, r.length = 8) →
    Loops.iter 1 (fun i p => do
      let np ← Loops.selectPoint t i (← Loops.get w (2 * i)).toInt32
      some (ComplPt.addExtendedNiels p np).toExtended) rows.length pre.length p =
    some (tableAddLoop rows (evens ws) p) := by
  induction rows with
  | nil =>
    intro pre wpre ws p _ _ _ h _
    have : ws = [] := by simpa using h
    subst this
    rfl
  | cons row rows ih =>
    intro pre wpre ws p ht hw hlw hl hr
    match ws, hl with
    | a :: b :: ws, hl =>
      have hg : Loops.get t pre.length = some row := by rw [ht]; exact get_append _ _ _ _ rfl
      have hgw : Loops.get w (2 * pre.length) = some a := by rw [hw]; exact get_append _ _ _ _ (by omega)
      simp only [List.length_cons, Loops.iter, hgw, selectPoint_eq t _ _ row hg (hr row (by simp)), Option.bind_eq_bind,
        Option.bind_some, evens, tableAddLoop]
      have := ih (pre ++ [row]) (wpre ++ [a, b]) ws (ComplPt.addExtendedNiels p (Model.selectPoint row a.toInt32)).toExtended
        (by simp [ht]) (by simp [hw]) (by simp; omega) (by simp at hl; omega) (fun r h => hr r (by simp [h]))
      simp only [List.length_append, List.length_cons, List.length_nil, Nat.zero_add, Nat.cast_add, Nat.cast_one,
        Option.bind_eq_bind] at this
      exact this

omit [FieldOps F] in
theorem shape_rows (t : Table F) (h : TabShape t) : t.length = 32 ∧ ∀ r ∈ t, r.length = 8 := by
  have hl := congrArg List.length h
  simp only [List.length_map, List.length_replicate] at hl
  refine ⟨hl, fun r hr => ?_⟩
  have : r.length ∈ t.map List.length := List.mem_map_of_mem hr
  rw [h] at this
  exact List.eq_of_mem_replicate this

theorem tableScalarMult_eq (t : Table F) (s : Bytes 32) (h : TabShape t) :
    Loops.tableScalarMult t s.toList = some (Model.tableScalarMult t s) := by
  obtain ⟨hl, hr⟩ := shape_rows t h
  have hw := computeScalarWindow4_length s
  have ho := odd_iter t (Model.computeScalarWindow4 s) t [] [] (Model.computeScalarWindow4 s) ExtPt.zero rfl rfl rfl
    (by omega) hr
  have he := even_iter t (Model.computeScalarWindow4 s) t [] [] (Model.computeScalarWindow4 s)
    (Model.double4 (tableAddLoop t (odds (Model.computeScalarWindow4 s)) ExtPt.zero)) rfl rfl rfl (by omega) hr
  rw [hl] at ho he
  simp only [List.length_nil, Nat.cast_zero, Option.bind_eq_bind] at ho he
  unfold Loops.tableScalarMult
  rw [computeScalarWindow4_eq, Option.bind_eq_bind, Option.bind_some, forLt_32]
  simp only [Option.bind_eq_bind]
  rw [ho, Option.bind_some, forLt_32]
  exact he

/-- Filling a row. -/
theorem inner_iter (cp : ExtPt F) (pre post : Table F) (old : List (NielsPt F)) : ∀ (done : List (NielsPt F)) (c : ExtPt F),
    Loops.iter 1 (Loops.computeInner cp pre.length) old.length done.length (pre ++ (done ++ old) :: post, c) =
    some (pre ++ (done ++ (tableRow cp old.length c).1) :: post, (tableRow cp old.length c).2) := by
  induction old with
  | nil => intros; rfl
  | cons o old ih =>
    intro done c
    simp only [List.length_cons, Loops.iter, Loops.computeInner, Loops.tabPut, get_append _ _ _ _ rfl, Option.bind_eq_bind,
      Option.bind_some, put_append _ _ _ _ _ rfl, tableRow]
    have := ih (done ++ [NielsPt.ofExtended (ExtPt.add c cp)]) (ExtPt.add c cp)
    simp only [List.length_append, List.length_cons, List.length_nil, Nat.zero_add, Nat.cast_add, Nat.cast_one,
      List.append_assoc, List.cons_append, List.nil_append] at this
    exact this

theorem outer_eq (done old : Table F) (o : List (NielsPt F)) (cp : ExtPt F) (ho : o.length = 8) :
    Loops.computeOuter done.length (done ++ o :: old, cp) =
    some (done ++ (tableRow cp 8 ExtPt.zero).1 :: old, (ComplPt.doubleProjective (ComplPt.doubleProjective
      (ComplPt.doubleProjective (ComplPt.doubleProjective (ComplPt.doubleExtended
        (tableRow cp 8 ExtPt.zero).2).toProjective).toProjective).toProjective).toProjective).toExtended) := by
  have hi := inner_iter cp done old o [] ExtPt.zero
  rw [ho] at hi
  simp only [List.nil_append, List.length_nil, Nat.cast_zero] at hi
  unfold Loops.computeOuter
  rw [forLt_8, hi, Option.bind_eq_bind, Option.bind_some]

theorem outer_iter (old : Table F) : ∀ (done : Table F) (cp : ExtPt F), (∀ r ∈ old, r.length = 8) →
    (Loops.iter 1 Loops.computeOuter old.length done.length (done ++ old, cp)).map Prod.fst =
    some (done ++ tableLoop old.length cp) := by
  induction old with
  | nil => intros; rfl
  | cons o old ih =>
    intro done cp hr
    simp only [List.length_cons, Loops.iter, outer_eq done old o cp (hr o (by simp)), Option.bind_eq_bind, Option.bind_some]
    have := ih (done ++ [(tableRow cp 8 ExtPt.zero).1]) (ComplPt.doubleProjective (ComplPt.doubleProjective
      (ComplPt.doubleProjective (ComplPt.doubleProjective (ComplPt.doubleExtended
        (tableRow cp 8 ExtPt.zero).2).toProjective).toProjective).toProjective).toProjective).toExtended
      (fun r h => hr r (by simp [h]))
    simp only [List.length_append, List.length_cons, List.length_nil, Nat.zero_add, Nat.cast_add, Nat.cast_one,
      List.append_assoc, List.cons_append, List.nil_append] at this
    rw [this]
    simp only [tableLoop]

theorem tableCompute_eq (t : Table F) (p : ExtPt F) (h : TabShape t) :
    Loops.tableCompute t p = some (Model.tableCompute p) := by
  obtain ⟨hl, hr⟩ := shape_rows t h
  have := outer_iter t [] p hr
  rw [hl] at this
  simp only [List.length_nil, Nat.cast_zero, List.nil_append] at this
  unfold Loops.tableCompute
  rw [forLt_32, Option.bind_eq_bind]
  unfold Model.tableCompute
  rw [← this, Option.map_eq_bind]
  exact Eq.refl _

theorem digit_index : ∀ w : Int8, (w.toInt32 < 0 → 0 ≤ (-w.toInt32 - 1).toInt) ∧
    (¬ w.toInt32 = 0 → ¬ w.toInt32 < 0 → 0 ≤ (w.toInt32 - 1).toInt) :=
  int8_forall (by decide +kernel)

theorem varTimeRound_eq (t : Table F) (w : List Int8) (i k : Int) (p : ExtPt F) (row : List (NielsPt F)) (d : Int8)
    (h : Loops.get t i = some row) (hd : Loops.get w k = some d) :
    Loops.varTimeRound t w i k p =
      if d.toInt32 = 0 then some p
      else (Model.varTimeSelectPoint row d.toInt32).bind fun np => some (ComplPt.addExtendedNiels p np).toExtended := by
  have hg : ∀ i', Loops.tabGet t i i' = Loops.get row i' := by intro i'; simp [Loops.tabGet, h]
  obtain ⟨h1, h2⟩ := digit_index d
  unfold Loops.varTimeRound Loops.varTimeSelectPoint Model.varTimeSelectPoint
  rw [hd]
  simp only [Option.bind_eq_bind, Option.bind_some, hg]
  by_cases h0 : d.toInt32 = 0
  · simp [h0]
  · by_cases hn : d.toInt32 < 0
    · simp only [h0, hn, if_false, if_true, Loops.get, h1 hn]
      cases row[(-d.toInt32 - 1).toInt.toNat]? <;> rfl
    · simp only [h0, hn, if_false, Loops.get, h2 h0 hn, if_true]
      cases row[(d.toInt32 - 1).toInt.toNat]? <;> rfl

theorem vt_odd_iter (t : Table F) (w : List Int8) (rows : List (List (NielsPt F))) :
    ∀ (pre : Table F) (wpre ws : List Int8) (p : ExtPt F), t = pre ++ rows → w = wpre ++ ws →
      wpre.length = 2 * pre.length → ws.length = 2 * rows.length →
    Loops.iter 1 (fun i p => Loops.varTimeRound t w i (2 * i + 1) p) rows.length pre.length p =
    tableVarTimeLoop rows (odds ws) p := by
  induction rows with
  | nil =>
    intro pre wpre ws p _ _ _ h
    have : ws = [] := by simpa using h
    subst this
    rfl
  | cons row rows ih =>
    intro pre wpre ws p ht hw hlw hl
    match ws, hl with
    | a :: b :: ws, hl =>
      have hg : Loops.get t pre.length = some row := by rw [ht]; exact get_append _ _ _ _ rfl
      have hgw : Loops.get w (2 * pre.length + 1) = some b := by rw [hw]; exact get_append1 _ _ _ _ _ (by omega)
      have := fun p => ih (pre ++ [row]) (wpre ++ [a, b]) ws p
        (by simp [ht]) (by simp [hw]) (by simp; omega) (by simp at hl; omega)
      simp only [List.length_append, List.length_cons, List.length_nil, Nat.zero_add, Nat.cast_add, Nat.cast_one] at this
      simp only [List.length_cons, Loops.iter, varTimeRound_eq t w _ _ p row b hg hgw, Option.bind_eq_bind,
        odds, tableVarTimeLoop]
      split
      · simp only [Option.bind_some, this]
      · rw [Option.bind_assoc]
        simp only [Option.bind_some, this]

theorem vt_even_iter (t : Table F) (w : List Int8) (rows : List (List (NielsPt F))) :
    ∀ (pre : Table F) (wpre ws : List Int8) (p : ExtPt F), t = pre ++ rows → w = wpre ++ ws →
      wpre.length = 2 * pre.length → ws.length = 2 * rows.length →
    Loops.iter 1 (fun i p => Loops.varTimeRound t w i (2 * i) p) rows.length pre.length p =
    tableVarTimeLoop rows (evens ws) p := by
  induction rows with
  | nil =>
    intro pre wpre ws p _ _ _ h
    have : ws = [] := by simpa using h
    subst this
    rfl
  | cons row rows ih =>
    intro pre wpre ws p ht hw hlw hl
    match ws, hl with
    | a :: b :: ws, hl =>
      have hg : Loops.get t pre.length = some row := by rw [ht]; exact get_append _ _ _ _ rfl
      have hgw : Loops.get w (2 * pre.length) = some a := by rw [hw]; exact get_append _ _ _ _ (by omega)
      have := fun p => ih (pre ++ [row]) (wpre ++ [a, b]) ws p
        (by simp [ht]) (by simp [hw]) (by simp; omega) (by simp at hl; omega)
      simp only [List.length_append, List.length_cons, List.length_nil, Nat.zero_add, Nat.cast_add, Nat.cast_one] at this
      simp only [List.length_cons, Loops.iter, varTimeRound_eq t w _ _ p row a hg hgw, Option.bind_eq_bind,
        evens, tableVarTimeLoop]
      split
      · simp only [Option.bind_some, this]
      · rw [Option.bind_assoc]
        simp only [Option.bind_some, this]

theorem tableVarTimeScalarMult_eq (t : Table F) (s : Bytes 32) (h : TabShape t) :
    Loops.tableVarTimeScalarMult t s.toList = Model.tableVarTimeScalarMult t s := by
  obtain ⟨hl, hr⟩ := shape_rows t h
  have hw := computeScalarWindow4_length s
  have ho := vt_odd_iter t (Model.computeScalarWindow4 s) t [] [] (Model.computeScalarWindow4 s) ExtPt.zero rfl rfl rfl
    (by omega)
  have he := fun p => vt_even_iter t (Model.computeScalarWindow4 s) t [] [] (Model.computeScalarWindow4 s) p rfl rfl rfl (by omega)
  rw [hl] at ho
  rw [hl] at he
  simp only [List.length_nil, Nat.cast_zero] at ho he
  unfold Loops.tableVarTimeScalarMult Model.tableVarTimeScalarMult
  rw [computeScalarWindow4_eq, Option.bind_eq_bind, Option.bind_some, forLt_32]
  simp only [Option.bind_eq_bind]
  rw [ho]
  congr 1
  funext p
  rw [forLt_32, he]
  rfl

end
end Ristretto.Proofs.Loops
