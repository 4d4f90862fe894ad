import Verif.Model.CrefLoops
import Verif.Proofs.Loops

/-!
# The arrays of cref.c: no access out of range, no read of an uninitialised cell
-/

set_option autoImplicit false

namespace Ristretto.Proofs.CrefLoops
open Ristretto Ristretto.Model Ristretto.Model.CrefLoops
open Ristretto.Model.Cref (Sc)
open Ristretto.Proofs.Loops (vec32)

/-! ## Reads and writes -/

theorem rd_full {α : Type} (a : List α) (i : Nat) : rd (full a) (i : Int) = a[i]? := by
  simp only [rd, full, Proofs.Loops.get_ofNat, List.getElem?_map]
  cases a[i]? <;> rfl

theorem rd_full_lt {α : Type} (a : List α) (i : Nat) (h : i < a.length) (d : α) : rd (full a) (i : Int) = some (a.getD i d) := by
  rw [rd_full, List.getElem?_eq_getElem h, List.getD_eq_getElem?_getD, List.getElem?_eq_getElem h]
  rfl

theorem wr_full {α : Type} (a : List α) (i : Nat) (v : α) (h : i < a.length) : wr (full a) (i : Int) v = some (full (a.set i v)) := by
  unfold wr full
  rw [Proofs.Loops.put_ofNat _ _ _ (by simpa using h), List.map_set]

theorem rd_append {α : Type} (pre : Arr α) (a : α) (rest : Arr α) (i : Int) (h : i = pre.length) :
    rd (pre ++ some a :: rest) i = some a := by
  unfold rd
  rw [Proofs.Loops.get_append _ _ _ _ h]
  rfl

theorem wr_append {α : Type} (pre : Arr α) (a : Option α) (v : α) (rest : Arr α) (i : Int) (h : i = pre.length) :
    wr (pre ++ a :: rest) i v = some (pre ++ some v :: rest) := Proofs.Loops.put_append _ _ _ _ _ h

theorem rd_append1 {α : Type} (pre : Arr α) (x : Option α) (a : α) (rest : Arr α) (i : Int) (h : i = pre.length + 1) :
    rd (pre ++ x :: some a :: rest) i = some a := by
  unfold rd
  rw [Proofs.Loops.get_append1 _ _ _ _ _ h]
  rfl

theorem wr_append1 {α : Type} (pre : Arr α) (x a : Option α) (v : α) (rest : Arr α) (i : Int) (h : i = pre.length + 1) :
    wr (pre ++ x :: a :: rest) i v = some (pre ++ x :: some v :: rest) := Proofs.Loops.put_append1 _ _ _ _ _ _ h

theorem full_append {α : Type} (a b : List α) : full (a ++ b) = full a ++ full b := by simp [full]
theorem full_cons {α : Type} (a : α) (b : List α) : full (a :: b) = some a :: full b := rfl
theorem full_nil {α : Type} : full ([] : List α) = [] := rfl
theorem full_length {α : Type} (a : List α) : (full a).length = a.length := by simp [full]

/-! ## Loops -/

/-- `forLt` over a range of natural numbers. -/
theorem forLt_nat' {σ : Type} (a b : Nat) (h : a ≤ b) (body : Int → σ → Option σ) (st : σ) :
    Loops.forLt (a : Int) (b : Int) 1 body st = Loops.iter 1 body (b - a) a st := by
  unfold Loops.forLt
  congr 1
  omega

/-- A loop whose body succeeds as long as an invariant holds, as a fold. -/
theorem iter_foldl {σ τ : Type} (inv : σ → τ → Prop) (body : Int → σ → Option σ) (g : τ → Nat → τ) (n : Nat) :
    ∀ (k : Nat) (st : σ) (t : τ), inv st t →
      (∀ i, k ≤ i → i < k + n → ∀ st t, inv st t → ∃ st', body i st = some st' ∧ inv st' (g t i)) →
      ∃ st', Loops.iter 1 body n k st = some st' ∧ inv st' ((List.range' k n).foldl g t) := by
  induction n with
  | zero => intro k st t h _; exact ⟨st, rfl, h⟩
  | succ n ih =>
    intro k st t h hb
    obtain ⟨st', he, hi⟩ := hb k (Nat.le_refl _) (by omega) st t h
    obtain ⟨st'', he', hi'⟩ := ih (k + 1) st' (g t k) hi (fun i h1 h2 => hb i (by omega) (by omega))
    refine ⟨st'', ?_, ?_⟩
    · rw [Loops.iter, he]
      simp only [Option.bind_eq_bind, Option.bind_some]
      rw [← he']
      norm_num
    · rw [List.range'_succ]; exact hi'

/-- A loop over an array without invariants to carry along. -/
theorem iter_eq {σ : Type} (body : Int → σ → Option σ) (g : σ → Nat → σ) (n k : Nat) (st : σ)
    (hb : ∀ i, k ≤ i → i < k + n → ∀ st, body i st = some (g st i)) :
    Loops.iter 1 body n k st = some ((List.range' k n).foldl g st) := by
  obtain ⟨st', h1, h2⟩ := iter_foldl (fun s t => s = t) body g n k st st rfl (by
    rintro i h1 h2 st t rfl
    exact ⟨_, hb i h1 h2 st, rfl⟩)
  rw [h1, h2]

/-- Run a function with state over a list, keeping the results. -/
def mapAccum {α β σ : Type} (f : α → σ → β × σ) : σ → List α → List β × σ
  | s, [] => ([], s)
  | s, x :: xs =>
    let r := f x s
    let rs := mapAccum f r.2 xs
    (r.1 :: rs.1, rs.2)

theorem mapAccum_length {α β σ : Type} (f : α → σ → β × σ) (xs : List α) : ∀ s, (mapAccum f s xs).1.length = xs.length := by
  induction xs with
  | nil => intro s; rfl
  | cons x xs ih => intro s; simp [mapAccum, ih]

/-- A loop that fills an array from the front. -/
theorem fill_iter {α β σ : Type} (f : α → σ → β × σ) (body : Int → σ × Arr β → Option (σ × Arr β)) (xs : List α) :
    ∀ (pre : List β) (s : σ) (old : Arr β), xs.length ≤ old.length →
      (∀ (i : Nat) (h : i < xs.length) (s : σ) (out : Arr β),
        body ((pre.length + i : Nat) : Int) (s, out) =
          (wr out ((pre.length + i : Nat) : Int) (f xs[i] s).1).map fun o => ((f xs[i] s).2, o)) →
      Loops.iter 1 body xs.length pre.length (s, full pre ++ old) =
        some ((mapAccum f s xs).2, full (pre ++ (mapAccum f s xs).1) ++ old.drop xs.length) := by
  induction xs with
  | nil => intro pre s old _ _; simp [Loops.iter, mapAccum]
  | cons x xs ih =>
    intro pre s old hl hb
    match old, hl with
    | o :: old, hl =>
      have h0 := hb 0 (by simp) s (full pre ++ o :: old)
      simp only [Nat.add_zero, List.getElem_cons_zero] at h0
      rw [wr_append _ _ _ _ _ (by rw [full_length])] at h0
      rw [List.length_cons, Loops.iter, h0]
      simp only [Option.map_some, Option.bind_eq_bind, Option.bind_some]
      have := ih (pre ++ [(f x s).1]) (f x s).2 old (by simpa using hl) (fun i h s out => by
        have := hb (i + 1) (by simpa using h) s out
        simp only [List.getElem_cons_succ] at this
        rw [show (pre ++ [(f x _).1]).length + i = pre.length + (i + 1) by simp; omega]
        exact this)
      simp only [List.length_append, List.length_cons, List.length_nil, full_append, full_cons, full_nil, List.append_assoc,
        List.cons_append, List.nil_append, Nat.zero_add] at this
      rw [show ((pre.length : Int) + 1) = ((pre.length + 1 : Nat) : Int) by simp, this]
      simp [mapAccum, full_append, full_cons]

/-- The case that starts at the first cell. -/
theorem fill {α β σ : Type} (f : α → σ → β × σ) (body : Int → σ × Arr β → Option (σ × Arr β)) (xs : List α) (s : σ) (old : Arr β)
    (n : Nat) (hn : xs.length = n) (ho : old.length = n)
    (hb : ∀ (i : Nat) (h : i < xs.length) (s : σ) (out : Arr β),
        body (i : Int) (s, out) = (wr out (i : Int) (f xs[i] s).1).map fun o => ((f xs[i] s).2, o)) :
    Loops.forLt 0 (n : Int) 1 body (s, old) = some ((mapAccum f s xs).2, full (mapAccum f s xs).1) := by
  rw [Proofs.Loops.forLt_nat, ← hn]
  have := fill_iter f body xs [] s old (by omega) (by simpa using hb)
  simp only [List.length_nil, full_nil, List.nil_append, Nat.cast_zero] at this
  rw [this, List.drop_eq_nil_of_le (by omega), List.append_nil]

/-- The case without further state. -/
theorem fill0 {α β : Type} (f : α → β) (body : Int → Arr β → Option (Arr β)) (xs : List α) (old : Arr β)
    (n : Nat) (hn : xs.length = n) (ho : old.length = n)
    (hb : ∀ (i : Nat) (h : i < xs.length) (out : Arr β), body (i : Int) out = wr out (i : Int) (f xs[i])) :
    Loops.forLt 0 (n : Int) 1 body old = some (full (xs.map f)) := by
  have h := fill (σ := Unit) (fun x s => (f x, s)) (fun i st => (body i st.2).map fun o => (st.1, o)) xs () old n hn ho
    (fun i h s out => by simp only [hb i h out])
  have hm : ∀ xs : List α, (mapAccum (σ := Unit) (fun x s => (f x, s)) () xs).1 = xs.map f := by
    intro xs
    induction xs with
    | nil => rfl
    | cons x xs ih => simp [mapAccum, ih]
  rw [hm] at h
  have hi : ∀ (k : Nat) (a : Int) (st : Arr β), Loops.iter 1 (fun i (st : Unit × Arr β) => (body i st.2).map fun o => (st.1, o)) k a ((), st) =
      (Loops.iter 1 body k a st).map fun o => ((), o) := by
    intro k
    induction k with
    | zero => intro a st; rfl
    | succ k ih =>
      intro a st
      simp only [Loops.iter, Option.bind_eq_bind]
      cases body a st with
      | none => rfl
      | some v => simp [ih]
  rw [Proofs.Loops.forLt_nat] at h ⊢
  rw [hi] at h
  cases hc : Loops.iter 1 body n 0 old with
  | none => rw [hc] at h; simp at h
  | some v => rw [hc] at h; simpa using h

/-! ## Scalars -/

theorem carry_iter (n : Nat) : ∀ (pre : Arr UInt32) (rest : List UInt32), n < rest.length →
    Loops.iter 1 carryRound n pre.length (pre ++ full rest) = some (pre ++ full (Cref.carryLoop n rest)) := by
  induction n with
  | zero => intro pre rest _; match rest with
    | [] => rfl
    | [a] => rfl
    | a :: b :: r => rfl
  | succ n ih =>
    intro pre rest h
    match rest, h with
    | a :: b :: r, h =>
      simp only [full_cons, Loops.iter, carryRound, Option.bind_eq_bind, rd_append _ _ _ _ rfl, rd_append1 _ _ _ _ _ rfl,
        wr_append _ _ _ _ _ rfl, wr_append1 _ _ _ _ _ _ rfl, Option.bind_some, Cref.carryLoop]
      have := ih (pre ++ [some (a &&& 0xff)]) ((b + (a >>> 8)) :: r) (by simpa using h)
      simp only [List.length_append, List.length_cons, List.length_nil, full_cons, List.append_assoc, List.cons_append, List.nil_append,
        Nat.cast_add, Nat.cast_one, Nat.zero_add] at this
      exact this

theorem carry_eq (n : Nat) (a : List UInt32) (h : n < a.length) :
    Loops.forLt 0 (n : Int) 1 carryRound (full a) = some (full (Cref.carryLoop n a)) := by
  rw [Proofs.Loops.forLt_nat]
  exact carry_iter n [] a h

theorem carryLoop_length (n : Nat) : ∀ a : List UInt32, (Cref.carryLoop n a).length = a.length := by
  induction n with
  | zero => intro a; match a with
    | [] => rfl
    | [a] => rfl
    | a :: b :: r => rfl
  | succ n ih => intro a; match a with
    | [] => rfl
    | [a] => rfl
    | a :: b :: r => simp [Cref.carryLoop, ih]

theorem addAt_length (a : List UInt32) (k : Nat) (x : UInt32) : (Cref.addAt a k x).length = a.length := by simp [Cref.addAt]

theorem columns_length (n k : Nat) (c : Nat → Nat → Bool) (f : Nat → Nat → UInt32) (a : List UInt32) :
    (Cref.columns n k c f a).length = a.length := by
  unfold Cref.columns
  have h2 : ∀ (i : Nat) (l : List Nat) (a : List UInt32),
      (l.foldl (fun a j => if c i j then Cref.addAt a (i + j) (f i j) else a) a).length = a.length := by
    intro i l
    induction l with
    | nil => intro a; rfl
    | cons j l ih => intro a; rw [List.foldl_cons, ih]; split <;> simp [addAt_length]
  have h1 : ∀ (l : List Nat) (a : List UInt32), (l.foldl (fun a i => (List.range k).foldl
      (fun a j => if c i j then Cref.addAt a (i + j) (f i j) else a) a) a).length = a.length := by
    intro l
    induction l with
    | nil => intro a; rfl
    | cons j l ih => intro a; rw [List.foldl_cons, ih, h2]
  exact h1 _ a

/-- The nested loops. -/
theorem columns_eq (n k N : Nat) (c : Int → Int → Bool) (f : Int → Int → Option UInt32) (c' : Nat → Nat → Bool) (f' : Nat → Nat → UInt32)
    (a : List UInt32) (ha : a.length = N) (hc : ∀ i j, i < n → j < k → c (i : Int) (j : Int) = c' i j)
    (hf : ∀ i j, i < n → j < k → c' i j = true → f (i : Int) (j : Int) = some (f' i j) ∧ i + j < N) :
    Loops.forLt 0 (n : Int) 1 (fun i => Loops.forLt 0 (k : Int) 1 (colRound c f i)) (full a) = some (full (Cref.columns n k c' f' a)) := by
  rw [Proofs.Loops.forLt_nat]
  have inner : ∀ i, i < n → ∀ a : List UInt32, a.length = N →
      Loops.forLt 0 (k : Int) 1 (colRound c f (i : Int)) (full a) =
        some (full ((List.range k).foldl (fun a j => if c' i j then Cref.addAt a (i + j) (f' i j) else a) a)) ∧
      ((List.range k).foldl (fun a j => if c' i j then Cref.addAt a (i + j) (f' i j) else a) a).length = N := by
    intro i hi a ha
    rw [Proofs.Loops.forLt_nat]
    obtain ⟨st', h1, h2, h3⟩ := iter_foldl (fun (s : Arr UInt32) (t : List UInt32) => s = full t ∧ t.length = N) (colRound c f (i : Int))
      (fun a j => if c' i j then Cref.addAt a (i + j) (f' i j) else a) k 0 (full a) a ⟨rfl, ha⟩ (by
        rintro j h1 h2 st t ⟨rfl, ht⟩
        have hj : j < k := by omega
        unfold colRound
        rw [hc i j hi hj]
        by_cases hcc : c' i j = true
        · obtain ⟨hf1, hf2⟩ := hf i j hi hj hcc
          refine ⟨full (Cref.addAt t (i + j) (f' i j)), ?_, ?_, ?_⟩
          · simp only [hcc, if_true, hf1, Option.bind_eq_bind, Option.bind_some]
            rw [show ((i : Int) + (j : Int)) = ((i + j : Nat) : Int) by simp, rd_full_lt t (i + j) (by omega) 0]
            simp only [Option.bind_some]
            rw [wr_full _ _ _ (by omega)]
            rfl
          · simp [hcc]
          · simp [hcc, addAt_length, ht]
        · exact ⟨full t, by simp [hcc], by simp [hcc], by simp [hcc, ht]⟩)
    rw [List.range_eq_range']
    refine ⟨?_, h3⟩
    rw [← h2]
    exact h1
  obtain ⟨st', h1, h2, h3⟩ := iter_foldl (fun (s : Arr UInt32) (t : List UInt32) => s = full t ∧ t.length = N)
    (fun i => Loops.forLt 0 (k : Int) 1 (colRound c f i))
    (fun a i => (List.range k).foldl (fun a j => if c' i j then Cref.addAt a (i + j) (f' i j) else a) a) n 0 (full a) a ⟨rfl, ha⟩ (by
      rintro i h1 h2 st t ⟨rfl, ht⟩
      obtain ⟨g1, g2⟩ := inner i (by omega) t ht
      exact ⟨_, g1, rfl, g2⟩)
  unfold Cref.columns
  rw [List.range_eq_range' (n := n), ← h2]
  exact h1

theorem zeros_eq (n : Nat) (old : Arr UInt32) (h : old.length = n) :
    Loops.forLt 0 (n : Int) 1 (fun i a => wr a i (0 : UInt32)) old = some (full (List.replicate n 0)) := by
  have := fill0 (fun _ : Unit => (0 : UInt32)) (fun i a => wr a i 0) (List.replicate n ()) old n (by simp) h (fun i _ out => rfl)
  simpa using this

theorem borrow_mapAccum (l : List (UInt32 × UInt32)) : ∀ pb, Cref.borrowLoop pb l =
    (mapAccum (fun (x : UInt32 × UInt32) pb => (x.1 - (pb + x.2) + (Cref.lt x.1 (pb + x.2) <<< 8), Cref.lt x.1 (pb + x.2))) pb l).1 := by
  induction l with
  | nil => intro pb; rfl
  | cons x l ih => intro pb; obtain ⟨a, b⟩ := x; simp only [Cref.borrowLoop, mapAccum, ih]

theorem subLoop_mapAccum (l : List (UInt32 × UInt32)) : ∀ pb, Cref.subLoop pb l =
    mapAccum (fun (x : UInt32 × UInt32) pb => ((x.1 - (pb + x.2) + (Cref.lt x.1 (pb + x.2) <<< 8)).toUInt8, Cref.lt x.1 (pb + x.2))) pb l := by
  induction l with
  | nil => intro pb; rfl
  | cons x l ih => intro pb; obtain ⟨a, b⟩ := x; simp only [Cref.subLoop, mapAccum, ih]

theorem subFrom_mapAccum (l : List (UInt32 × UInt32)) : ∀ b, Cref.subFromLoop b l =
    (mapAccum (fun (x : UInt32 × UInt32) b => ((x.1 - x.2 - b) &&& 255, ((x.1 - x.2 - b) >>> 8) &&& 1)) b l).1 := by
  induction l with
  | nil => intro pb; rfl
  | cons x l ih => intro pb; obtain ⟨a, b⟩ := x; simp only [Cref.subFromLoop, mapAccum, ih]

theorem reduceAddSub_eq (r : Sc) : reduceAddSub (full r.toList) = some (full (Cref.reduceAddSub r).toList) := by
  refine vec32 (fun r => reduceAddSub (full r.toList) = some (full (Cref.reduceAddSub r).toList)) ?_ r
  intros
  krfl

theorem ofList_toList (a : List UInt32) (h : a.length = 32) : (Cref.Sc.ofList a).toList = a := by
  apply List.ext_getElem (by simp [h])
  intro i h1 h2
  simp only [Cref.Sc.ofList, Vector.getElem_toList, Vector.getElem_ofFn]
  rw [List.getD_eq_getElem?_getD, List.getElem?_eq_getElem h2]
  rfl

theorem get_lt {α : Type} (a : List α) (i : Nat) (h : i < a.length) (d : α) : Loops.get a (i : Int) = some (a.getD i d) := by
  rw [Proofs.Loops.get_ofNat, List.getElem?_eq_getElem h, List.getD_eq_getElem?_getD, List.getElem?_eq_getElem h]
  rfl

section
attribute [local irreducible] Cref.columns Cref.carryLoop Cref.borrowLoop Cref.addAt Cref.reduceAddSub

theorem addAt_def (a : List UInt32) (k : Nat) (x : UInt32) : a.set k (a.getD k 0 + x) = Cref.addAt a k x := by
  unfold Cref.addAt
  rfl

theorem barrettReduce_eq (x : List UInt32) (hx : x.length = 64) (r : Arr UInt32) (hr : r.length = 32) :
    barrettReduce (full x) r = some (full (Cref.barrettReduce x).toList) := by
  unfold barrettReduce Cref.barrettReduce
  have h66 := zeros_eq 66 (uninit 66) rfl
  have h33 := zeros_eq 33 (uninit 33) rfl
  simp only [Nat.cast_ofNat] at h66 h33
  simp only [h66, h33, Option.bind_eq_bind, Option.bind_some]
  have hq := columns_eq 33 33 66 (fun i j => decide (i + j ≥ 31))
    (fun i j => do some ((← Loops.get Cref.muBarrett i) * (← rd (full x) (j + 31))))
    (fun i j => decide (i + j ≥ 31)) (fun i j => Cref.muBarrett.getD i 0 * x.getD (j + 31) 0) (List.replicate 66 0) (by simp)
    (fun i j _ _ => by
      simp only [decide_eq_decide]
      omega)
    (fun i j hi hj _ => by
      refine ⟨?_, by omega⟩
      rw [get_lt Cref.muBarrett i hi 0, show ((j : Int) + 31) = ((j + 31 : Nat) : Int) by simp, rd_full_lt x _ (by omega) 0]
      rfl)
  simp only [Nat.cast_ofNat, Option.bind_eq_bind] at hq
  rw [hq]
  generalize hQ : Cref.columns 33 33 (fun i j => decide (i + j ≥ 31)) (fun i j => Cref.muBarrett.getD i 0 * x.getD (j + 31) 0)
    (List.replicate 66 0) = Q
  have hQl : Q.length = 66 := by rw [← hQ, columns_length]; simp
  rw [Option.bind_some]
  have e31 := rd_full_lt Q 31 (by omega) 0
  have e32 := rd_full_lt Q 32 (by omega) 0
  have w32 := fun v => wr_full Q 32 v (by omega)
  simp only [Nat.cast_ofNat] at e31 e32 w32
  rw [e31, Option.bind_some, e32, Option.bind_some, w32, Option.bind_some, addAt_def]
  generalize hQ1 : Cref.addAt Q 32 (Q.getD 31 0 >>> 8) = Q1
  have hQ1l : Q1.length = 66 := by rw [← hQ1, addAt_length, hQl]
  have f32 := rd_full_lt Q1 32 (by omega) 0
  have f33 := rd_full_lt Q1 33 (by omega) 0
  have w33 := fun v => wr_full Q1 33 v (by omega)
  simp only [Nat.cast_ofNat] at f32 f33 w33
  rw [f32, Option.bind_some, f33, Option.bind_some, w33, Option.bind_some, addAt_def]
  generalize hQ2 : Cref.addAt Q1 33 (Q1.getD 32 0 >>> 8) = Q2
  have hQ2l : Q2.length = 66 := by rw [← hQ2, addAt_length, hQ1l]
  have hr1 := fill0 (fun v : UInt32 => v) (fun i r1 => do wr r1 i (← rd (full x) i)) (x.take 33) (uninit 33) 33 (by simp [hx]) rfl
    (fun i h out => by
      have hi : i < x.length := by simp at h; omega
      rw [rd_full, List.getElem?_eq_getElem hi]
      simp)
  simp only [Nat.cast_ofNat, Option.bind_eq_bind, List.map_id'] at hr1
  rw [hr1]
  rw [Option.bind_some]
  have hr2 := columns_eq 32 33 33 (fun i j => decide (i + j < 33))
    (fun i j => do some ((← Loops.get Cref.mOrder i) * (← rd (full Q2) (33 + j))))
    (fun i j => decide (i + j < 33)) (fun i j => Cref.mOrder.getD i 0 * (Q2.drop 33).getD j 0) (List.replicate 33 0) (by simp)
    (fun i j _ _ => by
      simp only [decide_eq_decide]
      omega)
    (fun i j hi hj hc => by
      refine ⟨?_, by simpa using hc⟩
      rw [get_lt Cref.mOrder i hi 0, show (33 + (j : Int)) = ((33 + j : Nat) : Int) by simp, rd_full_lt Q2 _ (by omega) 0]
      simp only [Option.bind_eq_bind, Option.bind_some]
      rw [List.getD_eq_getElem?_getD (l := Q2), List.getD_eq_getElem?_getD (l := Q2.drop 33), List.getElem?_drop])
  simp only [Nat.cast_ofNat, Option.bind_eq_bind] at hr2
  rw [hr2]
  generalize hR : Cref.columns 32 33 (fun i j => decide (i + j < 33)) (fun i j => Cref.mOrder.getD i 0 * (Q2.drop 33).getD j 0)
    (List.replicate 33 0) = R
  have hRl : R.length = 33 := by rw [← hR, columns_length]; simp
  rw [Option.bind_some]
  have hcl := carry_eq 32 R (by omega)
  simp only [Nat.cast_ofNat] at hcl
  rw [hcl]
  rw [Option.bind_some]
  have hCl : (Cref.carryLoop 32 R).length = 33 := by rw [carryLoop_length, hRl]
  generalize Cref.carryLoop 32 R = C at hCl ⊢
  have hb := fill (fun (x : UInt32 × UInt32) pb => (x.1 - (pb + x.2) + (Cref.lt x.1 (pb + x.2) <<< 8), Cref.lt x.1 (pb + x.2)))
    (borrowRound (full (x.take 33)) (full C)) (((x.take 33).take 32).zip (C.take 32)) 0 r 32 (by simp [hx, hCl]) hr
    (fun i h pb out => by
      have hi : i < 32 := by simpa [hx, hCl] using h
      unfold borrowRound
      rw [rd_full, rd_full, List.getElem?_eq_getElem (show i < C.length by omega),
        List.getElem?_eq_getElem (show i < (x.take 33).length by simp [hx]; omega)]
      simp only [Option.bind_eq_bind, Option.bind_some, List.getElem_zip, List.getElem_take]
      cases wr out _ _ <;> rfl)
  simp only [Nat.cast_ofNat] at hb
  rw [hb, ← borrow_mapAccum]
  rw [Option.bind_some]
  have hl : (Cref.borrowLoop 0 (((x.take 33).take 32).zip (C.take 32))).length = 32 := by
    rw [borrow_mapAccum, mapAccum_length]
    simp [hx, hCl]
  generalize Cref.borrowLoop 0 (((x.take 33).take 32).zip (C.take 32)) = B at hl ⊢
  rw [← ofList_toList B hl, reduceAddSub_eq]
  rw [Option.bind_some]
  rw [reduceAddSub_eq, ofList_toList B hl]


end

theorem unpack_eq (x : Bytes 32) (r : Arr UInt32) (hr : r.length = 32) :
    unpack x.toList r = some (full (Cref.scUnpack x).toList) := by
  unfold unpack
  have h := fill0 UInt8.toUInt32 (fun i r => do wr r i (← Loops.get x.toList i).toUInt32) x.toList r 32 (by simp) hr
    (fun i h out => by
      rw [Proofs.Loops.get_ofNat, List.getElem?_eq_getElem h]
      rfl)
  simp only [Nat.cast_ofNat, Option.bind_eq_bind] at h
  simp only [Option.bind_eq_bind, h, Option.bind_some]
  have e31 := rd_full_lt (x.toList.map UInt8.toUInt32) 31 (by simp) 0
  have w31 := fun v => wr_full (x.toList.map UInt8.toUInt32) 31 v (by simp)
  simp only [Nat.cast_ofNat] at e31 w31
  simp only [e31, w31, Option.bind_some]
  unfold Cref.scUnpack
  rw [← reduceAddSub_eq]
  congr 2
  rw [Vector.toList_set, Vector.toList_map]
  simp [List.getD_eq_getElem?_getD]

theorem toBuf_full (b : Bytes 32) : toBuf (full b.toList) = some b := by
  have h : (full b.toList).mapM id = some b.toList := by
    generalize b.toList = l
    unfold full
    induction l with
    | nil => rfl
    | cons a l ih => simp only [List.map_cons, List.mapM_cons, ih, id]; rfl
  unfold toBuf
  simp only [h, Option.bind_eq_bind, Option.bind_some]
  rw [dif_pos (by simp)]
  congr 1

theorem pack_eq (x : Sc) (r : Arr UInt8) (hr : r.length = 32) : pack (full x.toList) r = some (full (Cref.scPack x).toList) := by
  unfold pack
  have h := fill0 UInt32.toUInt8 (fun i r => do wr r i (← rd (full x.toList) i).toUInt8) x.toList r 32 (by simp) hr
    (fun i h out => by
      rw [rd_full, List.getElem?_eq_getElem h]
      rfl)
  simp only [Nat.cast_ofNat, Option.bind_eq_bind] at h
  simp only [Option.bind_eq_bind, h]
  unfold Cref.scPack
  rw [Vector.toList_map]

theorem setZero_eq (r : Arr UInt32) (hr : r.length = 32) : setZero r = some (full Cref.scSetZero.toList) := zeros_eq 32 r hr

theorem list32 {α : Type} (P : List α → Prop) (h : ∀ v : Vector α 32, P v.toList) (a : List α) (ha : a.length = 32) : P a := by
  have := h ⟨a.toArray, by simpa using ha⟩
  simpa using this

theorem setOne_eq (r : Arr UInt32) (hr : r.length = 32) : setOne r = some (full Cref.scSetOne.toList) := by
  refine list32 (fun r => setOne r = some (full Cref.scSetOne.toList)) (fun v => ?_) r hr
  refine vec32 (fun v => setOne v.toList = some (full Cref.scSetOne.toList)) ?_ v
  intros
  krfl

theorem from64bytes_eq (h : Bytes 64) (r : Arr UInt32) (hr : r.length = 32) :
    from64bytes h.toList r = some (full (Cref.from64bytes h).toList) := by
  unfold from64bytes
  have e := fill0 UInt8.toUInt32 (fun i t => do wr t i (← Loops.get h.toList i).toUInt32) h.toList (uninit 64) 64 (by simp) rfl
    (fun i hi out => by
      rw [Proofs.Loops.get_ofNat, List.getElem?_eq_getElem hi]
      rfl)
  simp only [Nat.cast_ofNat] at e
  unfold Cref.from64bytes
  rw [Option.bind_eq_bind, e, Option.bind_some]
  rw [barrettReduce_eq _ (by simp) r hr]


/-! ## Scalars in memory -/

theorem upd_same (m : SMem) (p : SAddr) (a : Arr UInt32) : m.upd p a p = a := by simp [SMem.upd]
theorem upd_ne (m : SMem) (p q : SAddr) (a : Arr UInt32) (h : q ≠ p) : m.upd p a q = m q := by simp [SMem.upd, h]
theorem upd_upd (m : SMem) (p : SAddr) (a b : Arr UInt32) : (m.upd p a).upd p b = m.upd p b := by
  funext q
  simp only [SMem.upd]
  split <;> rfl

theorem onSc_eq (m : SMem) (r : SAddr) (f : Arr UInt32 → Option (Arr UInt32)) (a : Arr UInt32) (h : f (m r) = some a) :
    m.onSc r f = some (m.upd r a) := by
  simp [SMem.onSc, h]

/-- The first loop of `group_scalar_add`, wherever its arguments are. -/
theorem addLoop_eq (r x y : SAddr) (m : SMem) (X Y : List UInt32) (hX : X.length = 32) (hY : Y.length = 32) (hx : m x = full X)
    (hy : m y = full Y) (hr : (m r).length = 32) :
    Loops.forLt 0 32 1 (fun i (m : SMem) => do m.wr r i ((← rd (m x) i) + (← rd (m y) i))) m =
      some (m.upd r (full (List.zipWith (· + ·) X Y))) := by
  have hz : (List.zipWith (· + ·) X Y).length = 32 := by simp [hX, hY]
  -- after `k` rounds
  have key : ∀ (n k : Nat), k + n = 32 →
      Loops.iter 1 (fun i (m : SMem) => do m.wr r i ((← rd (m x) i) + (← rd (m y) i))) n k
        (m.upd r (full ((List.zipWith (· + ·) X Y).take k) ++ (m r).drop k)) = some (m.upd r (full (List.zipWith (· + ·) X Y))) := by
    intro n
    induction n with
    | zero =>
      intro k hk
      rw [List.take_of_length_le (by omega), List.drop_eq_nil_of_le (by omega), List.append_nil]
      rfl
    | succ n ih =>
      intro k hk
      have rdz : ∀ (z : SAddr) (Z : List UInt32) (hZ : Z.length = 32), m z = full Z →
          rd (m.upd r (full ((List.zipWith (· + ·) X Y).take k) ++ (m r).drop k) z) (k : Int) = some (Z[k]'(by omega)) := by
        intro z Z hZ hz'
        by_cases h : z = r
        · subst h
          rw [upd_same, hz', show (full Z).drop k = some (Z[k]'(by omega)) :: (full Z).drop (k + 1) by
            rw [List.drop_eq_getElem_cons (by rw [full_length]; omega)]; simp [full]]
          rw [rd_append _ _ _ _ (by rw [full_length, List.length_take, hz]; omega)]
        · rw [upd_ne _ _ _ _ h, hz', rd_full, List.getElem?_eq_getElem (by omega)]
      simp only [Loops.iter, Option.bind_eq_bind]
      rw [rdz x X hX hx, rdz y Y hY hy]
      simp only [Option.bind_some, SMem.wr, upd_same, Option.bind_eq_bind]
      rw [List.drop_eq_getElem_cons (by omega : k < (m r).length), wr_append _ _ _ _ _ (by rw [full_length, List.length_take, hz]; omega)]
      simp only [Option.bind_some, upd_upd]
      have := ih (k + 1) (by omega)
      rw [List.take_succ_eq_append_getElem (by omega), full_append, full_cons, full_nil, List.append_assoc] at this
      simp only [List.getElem_zipWith, List.cons_append, List.nil_append, Nat.cast_add, Nat.cast_one] at this
      exact this
  have := key 32 0 rfl
  rw [List.take_zero, full_nil, List.nil_append, List.drop_zero] at this
  have hm : m.upd r (m r) = m := by
    funext q
    simp only [SMem.upd]
    split
    · next h => rw [h]
    · rfl
  rw [hm] at this
  rw [Proofs.Loops.forLt_32]
  exact this

theorem add_eq (r x y : SAddr) (m : SMem) (X Y : Sc) (hx : m x = full X.toList) (hy : m y = full Y.toList) (hr : (m r).length = 32) :
    add r x y m = some (m.upd r (full (Cref.scAdd X Y).toList)) := by
  unfold add Cref.scAdd
  have hl := addLoop_eq r x y m X.toList Y.toList (by simp) (by simp) hx hy hr
  simp only [Option.bind_eq_bind] at hl ⊢
  rw [hl]
  simp only [Option.bind_some]
  have hz : (List.zipWith (· + ·) X.toList Y.toList).length = 32 := by simp
  generalize List.zipWith (· + ·) X.toList Y.toList = Z at hz ⊢
  have hc := carry_eq 31 Z (by omega)
  simp only [Nat.cast_ofNat] at hc
  rw [onSc_eq _ r _ _ (by rw [upd_same]; exact hc)]
  simp only [Option.bind_some, upd_upd]
  have hcl : (Cref.carryLoop 31 Z).length = 32 := by rw [carryLoop_length, hz]
  rw [← ofList_toList _ hcl, onSc_eq _ r _ _ (by rw [upd_same]; exact reduceAddSub_eq _), upd_upd, ofList_toList _ hcl]

/-- The loop of `group_scalar_sub`. -/
theorem subFrom_eq (y d : SAddr) (m : SMem) (Y : Sc) (hy : m y = full Y.toList) (hd : (m d).length = 32) (hyd : y ≠ d) :
    (Loops.forLt 0 32 1 (subFromRound y d) (0, m)).map Prod.snd =
      some (m.upd d (full (Cref.subFromLoop 0 (Cref.mOrder.zip Y.toList)))) := by
  have h := fill (fun (x : UInt32 × UInt32) b => ((x.1 - x.2 - b) &&& 255, ((x.1 - x.2 - b) >>> 8) &&& 1))
    (fun i (st : UInt32 × Arr UInt32) => do
      let t := (← Loops.get Cref.mOrder i) - (← rd (full Y.toList) i) - st.1
      let a ← wr st.2 i (t &&& 255)
      some ((t >>> 8) &&& 1, a))
    (Cref.mOrder.zip Y.toList) 0 (m d) 32 (by simp [Cref.mOrder]) hd (fun i h b out => by
      have hi : i < 32 := by simpa [Cref.mOrder] using h
      rw [Proofs.Loops.get_ofNat, List.getElem?_eq_getElem (show i < Cref.mOrder.length from hi), rd_full,
        List.getElem?_eq_getElem (show i < Y.toList.length by simpa using hi)]
      simp only [Option.bind_eq_bind, Option.bind_some, List.getElem_zip]
      cases wr out _ _ <;> rfl)
  simp only [Nat.cast_ofNat] at h
  rw [← subFrom_mapAccum] at h
  have hi : ∀ (n : Nat) (k : Int) (b : UInt32) (a : Arr UInt32),
      Loops.iter 1 (subFromRound y d) n k (b, m.upd d a) =
        (Loops.iter 1 (fun i (st : UInt32 × Arr UInt32) => do
          let t := (← Loops.get Cref.mOrder i) - (← rd (full Y.toList) i) - st.1
          let a ← wr st.2 i (t &&& 255)
          some ((t >>> 8) &&& 1, a)) n k (b, a)).map fun st => (st.1, m.upd d st.2) := by
    intro n
    induction n with
    | zero => intro k b a; rfl
    | succ n ih =>
      intro k b a
      simp only [Loops.iter, subFromRound, Option.bind_eq_bind, upd_ne _ _ _ _ hyd, hy, SMem.wr, upd_same]
      cases Loops.get Cref.mOrder k with
      | none => rfl
      | some u =>
        simp only [Option.bind_some]
        cases rd (full Y.toList) k with
        | none => rfl
        | some v =>
          simp only [Option.bind_some]
          cases wr a k ((u - v - b) &&& 255) with
          | none => rfl
          | some a' =>
            simp only [Option.bind_some, upd_upd]
            rw [ih]
            rfl
  have hm : m.upd d (m d) = m := by
    funext q
    simp only [SMem.upd]
    split
    · next h => rw [h]
    · rfl
  rw [Proofs.Loops.forLt_32] at h ⊢
  have := hi 32 0 0 (m d)
  rw [hm, h] at this
  rw [this]
  rfl

/-- Memories that agree but for local variables. -/
def Agree (m m' : SMem) : Prop := ∀ n, m (.var n) = m' (.var n)

theorem sub_eq (r x y : SAddr) (m : SMem) (X Y : Sc) (hx : m x = full X.toList) (hy : m y = full Y.toList) (hr : (m r).length = 32)
    (h6 : r ≠ .loc 6 ∧ x ≠ .loc 6 ∧ y ≠ .loc 6) :
    ∃ m', sub r x y m = some m' ∧ Agree m' (m.upd r (full (Cref.scSub X Y).toList)) := by
  have hd : m.decl 6 (.loc 6) = uninit 32 := upd_same _ _ _
  have hl := subFrom_eq y (.loc 6) (m.decl 6) Y (by rw [SMem.decl, upd_ne _ _ _ _ h6.2.2, hy]) (by rw [hd]; rfl) h6.2.2
  unfold sub
  simp only [Option.bind_eq_bind]
  cases hc : Loops.forLt 0 32 1 (subFromRound y (.loc 6)) (0, m.decl 6) with
  | none => rw [hc] at hl; simp at hl
  | some st =>
    rw [hc] at hl
    simp only [Option.map_some, Option.some.injEq] at hl
    simp only [Option.bind_some]
    have hlen : (Cref.subFromLoop 0 (Cref.mOrder.zip Y.toList)).length = 32 := by
      rw [subFrom_mapAccum, mapAccum_length]
      simp [Cref.mOrder]
    rw [hl, SMem.decl, upd_upd]
    refine ⟨_, add_eq r x (.loc 6) _ X (Cref.Sc.ofList (Cref.subFromLoop 0 (Cref.mOrder.zip Y.toList))) ?_ ?_ ?_, ?_⟩
    · rw [upd_ne _ _ _ _ h6.2.1, hx]
    · rw [upd_same, ofList_toList _ hlen]
    · rw [upd_ne _ _ _ _ h6.1, hr]
    · intro n
      by_cases h : (SAddr.var n) = r
      · rw [h, upd_same, upd_same]; rfl
      · rw [upd_ne _ _ _ _ h, upd_ne _ _ _ _ h, upd_ne _ _ _ _ (by simp)]

theorem negate_eq (r x : Nat) (m : SMem) (X : Sc) (hx : m (.var x) = full X.toList) (hr : (m (.var r)).length = 32) :
    ∃ m', negate (.var r) (.var x) m = some m' ∧ Agree m' (m.upd (.var r) (full (Cref.scNegate X).toList)) := by
  have hd : m.decl 7 (.loc 7) = uninit 32 := upd_same _ _ _
  unfold negate
  simp only [Option.bind_eq_bind]
  rw [onSc_eq _ _ setZero _ (by rw [hd]; exact setZero_eq _ rfl)]
  simp only [Option.bind_some]
  rw [SMem.decl, upd_upd]
  obtain ⟨m', h1, h2⟩ := sub_eq (.var r) (.loc 7) (.var x) (m.upd (.loc 7) (full Cref.scSetZero.toList)) Cref.scSetZero X
    (upd_same _ _ _) (by rw [upd_ne _ _ _ _ (by simp), hx]) (by rw [upd_ne _ _ _ _ (by simp), hr]) (by simp)
  refine ⟨m', h1, fun n => ?_⟩
  rw [h2 n]
  by_cases h : n = r
  · subst h; rw [upd_same, upd_same]; rfl
  · rw [upd_ne _ _ _ _ (by simpa using h), upd_ne _ _ _ _ (by simp), upd_ne _ _ _ _ (by simpa using h)]

theorem mul_eq (r x y : SAddr) (m : SMem) (X Y : Sc) (hx : m x = full X.toList) (hy : m y = full Y.toList) (hr : (m r).length = 32) :
    mul r x y m = some (m.upd r (full (Cref.scMul X Y).toList)) := by
  unfold mul Cref.scMul
  have h64 := zeros_eq 64 (uninit 64) rfl
  simp only [Nat.cast_ofNat] at h64
  simp only [h64, Option.bind_eq_bind, Option.bind_some, hx, hy]
  have hq := columns_eq 32 32 64 (fun _ _ => true) (fun i j => do some ((← rd (full X.toList) i) * (← rd (full Y.toList) j)))
    (fun _ _ => true) (fun i j => X.toList.getD i 0 * Y.toList.getD j 0) (List.replicate 64 0) (by simp)
    (fun _ _ _ _ => rfl)
    (fun i j hi hj _ => by
      refine ⟨?_, by omega⟩
      rw [rd_full_lt X.toList i (by simpa using hi) 0, rd_full_lt Y.toList j (by simpa using hj) 0]
      rfl)
  simp only [Nat.cast_ofNat, Option.bind_eq_bind] at hq
  rw [hq]
  generalize hQ : Cref.columns 32 32 (fun _ _ => true) (fun i j => X.toList.getD i 0 * Y.toList.getD j 0) (List.replicate 64 0) = Q
  have hQl : Q.length = 64 := by rw [← hQ, columns_length]; simp
  simp only [Option.bind_some]
  have hc := carry_eq 63 Q (by omega)
  simp only [Nat.cast_ofNat] at hc
  rw [hc]
  simp only [Option.bind_some]
  exact onSc_eq _ _ _ _ (barrettReduce_eq _ (by rw [carryLoop_length, hQl]) _ hr)

end Ristretto.Proofs.CrefLoops
