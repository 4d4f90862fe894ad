import Verif.Model.ScalarChecked
import Verif.Proofs.ScalarOps

/-! The `int64` arithmetic of the scalars does not overflow. -/

namespace Ristretto.Proofs.ScalarChecked
open Model Model.Scalar Model.ScalarChecked Proofs
set_option autoImplicit false

/-- No operation on the way to any of the variables overflowed. -/
def Fine (s : CLimbs) : Prop := ∀ k, (s k).ok = true

/-- The values. -/
def vals (s : CLimbs) : Limbs := fun k => (s k).val

theorem vals_put (s : CLimbs) (i : ℕ) (v : I) : vals (put s i v) = Limbs.set (vals s) i v.val := by
  funext k
  simp only [vals, put, Limbs.set]
  split <;> rfl

theorem vals_ofList (l : List I) : vals (ofList l) = Limbs.ofList (l.map I.val) := by
  funext k
  simp only [vals, ofList, Limbs.ofList]
  rw [show (0 : Int64) = I.val 0 from rfl, List.getD_map]

theorem val_add (a b : I) : (a + b).val = a.val + b.val := rfl
theorem val_sub (a b : I) : (a - b).val = a.val - b.val := rfl
theorem val_mul (a b : I) : (a * b).val = a.val * b.val := rfl
theorem val_shl (a b : I) : (a <<< b).val = a.val <<< b.val := rfl
theorem val_shr (a b : I) : (a >>> b).val = a.val >>> b.val := rfl
theorem val_num (n : ℕ) : (OfNat.ofNat n : I).val = (OfNat.ofNat n : Int64) := rfl
theorem val_put (s : CLimbs) (i : ℕ) (v : I) (k : ℕ) : (put s i v k).val = Limbs.set (vals s) i v.val k :=
  congrFun (vals_put s i v) k
theorem val_at (s : CLimbs) (k : ℕ) : (s k).val = vals s k := rfl

theorem vals_exec (o : RedOp) (s : CLimbs) : vals (exec o s) = o.exec (vals s) := by
  cases o with
  | carryR i =>
    simp only [exec, RedOp.exec, vals_put, val_add, val_sub, val_shl, val_shr, val_put]; rfl
  | carryF i =>
    simp only [exec, RedOp.exec, vals_put, val_add, val_sub, val_shl, val_shr, val_put]; rfl
  | fold j =>
    simp only [exec, RedOp.exec, vals_put, val_add, val_sub, val_mul, val_put]
    simp only [val_at]
    rfl

theorem fine_put {s : CLimbs} (h : Fine s) {i : ℕ} {v : I} (hv : v.ok = true) : Fine (put s i v) := by
  intro k
  simp only [put]
  split
  · exact hv
  · exact h k

theorem exact_ok {x : Int64} {z : ℤ} {b : Bool} (hb : b = true) (h : x.toInt = z) : (I.exact x z b).ok = true := by
  show (b && decide (x.toInt = z)) = true
  rw [hb, decide_eq_true h]; rfl

theorem add_ok {a b : I} (ha : a.ok = true) (hb : b.ok = true)
    (h : (a.val + b.val).toInt = a.val.toInt + b.val.toInt) : (a + b).ok = true :=
  exact_ok (by rw [ha, hb]; rfl) h
theorem sub_ok {a b : I} (ha : a.ok = true) (hb : b.ok = true)
    (h : (a.val - b.val).toInt = a.val.toInt - b.val.toInt) : (a - b).ok = true :=
  exact_ok (by rw [ha, hb]; rfl) h
theorem mul_ok {a b : I} (ha : a.ok = true) (hb : b.ok = true)
    (h : (a.val * b.val).toInt = a.val.toInt * b.val.toInt) : (a * b).ok = true :=
  exact_ok (by rw [ha, hb]; rfl) h

theorem carry_exact {s : Limbs} {B B' : Bnds} (h : Within s B) (i : ℕ) (r : ℤ) (out : ℤ × ℤ) (c : Int64)
    (hc : c.toInt = ((s i).toInt + r) / 2 ^ 21) (hr : 0 ≤ r ∧ r ≤ 2 ^ 20) (hB : absCarry B i r out = some B') :
    (s (i + 1) + c).toInt = (s (i + 1)).toInt + c.toInt ∧ (c <<< 21).toInt = c.toInt * 2 ^ 21 ∧
      (s i - (c <<< 21)).toInt = (s i).toInt - (c <<< 21).toInt := by
  unfold absCarry at hB
  simp only at hB
  split at hB
  · rename_i hcond
    simp only [Bool.and_eq_true, small_iff, decide_eq_true_eq] at hcond
    obtain ⟨⟨⟨hb1, hb2⟩, hn1, hn2⟩, hi⟩ := hcond
    have hsi := h.2 i (by omega)
    have hsi1 := h.2 (i + 1) (by omega)
    generalize hbv : B.at i = b at *
    generalize hbv' : B.at (i + 1) = b' at *
    have hdm := Int.emod_add_mul_ediv ((s i).toInt + r) (2 ^ 21)
    have hm0 := Int.emod_nonneg ((s i).toInt + r) (show (2 : ℤ) ^ 21 ≠ 0 by norm_num)
    have hm1 := Int.emod_lt_of_pos ((s i).toInt + r) (show (0 : ℤ) < 2 ^ 21 by norm_num)
    rw [← hc] at hdm
    have hcl : (b.1 + r) / 2 ^ 21 ≤ c.toInt := by
      rw [hc]; exact Int.ediv_le_ediv (by norm_num) (by omega)
    have hcu : c.toInt ≤ (b.2 + r) / 2 ^ 21 := by
      rw [hc]; exact Int.ediv_le_ediv (by norm_num) (by omega)
    have e1 : (s (i + 1) + c).toInt = (s (i + 1)).toInt + c.toInt := i64_add (by omega) (by omega)
    have esh : (c <<< 21).toInt = c.toInt * 2 ^ 21 := i64_shl' c 21 21 (by decide) (by omega) (by omega)
    exact ⟨e1, esh, i64_sub (by rw [esh]; omega) (by rw [esh]; omega)⟩
  · cases hB

theorem acc_exact {s : Limbs} {B B' : Bnds} (h : Within s B) {i j : ℕ} (hi : i < 24) (hj : j < 24) (c : Int64) (k : ℤ)
    (hk : k = c.toInt ∨ k = -c.toInt) (hB : absAcc B i j k = some B') :
    (s j * c).toInt = (s j).toInt * c.toInt ∧
    (k = c.toInt → (s i + s j * c).toInt = (s i).toInt + (s j * c).toInt) ∧
    (k = -c.toInt → (s i - s j * c).toInt = (s i).toInt - (s j * c).toInt) := by
  unfold absAcc at hB
  simp only at hB
  obtain ⟨hj1, hj2⟩ := h.2 j hj
  have hsi := h.2 i hi
  have hm := mul_bounds (c := k) hj1 hj2
  generalize hmv : (if 0 ≤ k then ((B.at j).1 * k, (B.at j).2 * k) else ((B.at j).2 * k, (B.at j).1 * k)) = m at *
  split at hB
  · rename_i hcond
    simp only [Bool.and_eq_true, small_iff] at hcond
    have e1 : (s j * c).toInt = (s j).toInt * c.toInt := by
      rcases hk with rfl | rfl
      · exact i64_mul (by omega) (by omega)
      · rw [mul_neg] at hm; exact i64_mul (by omega) (by omega)
    refine ⟨e1, ?_, ?_⟩
    · rintro rfl
      exact i64_add (by rw [e1]; omega) (by rw [e1]; omega)
    · rintro rfl
      rw [mul_neg] at hm
      exact i64_sub (by rw [e1]; omega) (by rw [e1]; omega)
  · cases hB

theorem shl_ok {c : I} (hc : c.ok = true) (h : (c.val <<< 21).toInt = c.val.toInt * 2 ^ 21) : (c <<< (21 : I)).ok = true :=
  exact_ok (by rw [hc]; rfl) h

theorem shr_ok {c : I} (hc : c.ok = true) : (c >>> (21 : I)).ok = true := by
  show (c.ok && true) = true
  rw [hc]; rfl

theorem carry_fine {s : CLimbs} {B B' : Bnds} (hf : Fine s) (h : Within (vals s) B) (i : ℕ) (r : ℤ) (out : ℤ × ℤ) (c : I)
    (hok : c.ok = true) (hc : c.val.toInt = ((vals s i).toInt + r) / 2 ^ 21) (hr : 0 ≤ r ∧ r ≤ 2 ^ 20)
    (hB : absCarry B i r out = some B') :
    Fine (put (put s (i + 1) (s (i + 1) + c)) i (put s (i + 1) (s (i + 1) + c) i - (c <<< (21 : I)))) := by
  obtain ⟨e1, e2, e3⟩ := carry_exact h i r out c.val hc hr hB
  have e0 : put s (i + 1) (s (i + 1) + c) i = s i := if_neg (by omega)
  rw [e0]
  exact fine_put (fine_put hf (add_ok (hf _) hok e1)) (sub_ok (hf i) (shl_ok hok e2) e3)

theorem accAdd_fine {s : CLimbs} {B B' : Bnds} (hf : Fine s) (h : Within (vals s) B) {i j : ℕ} (hi : i < 24) (hj : j < 24)
    (hij : i ≠ j) (c : Int64) (hB : absAcc B i j c.toInt = some B') :
    Fine (put s i (s i + s j * .of c)) ∧ Within (vals (put s i (s i + s j * .of c))) B' := by
  obtain ⟨e1, e2, -⟩ := acc_exact h hi hj c _ (Or.inl rfl) hB
  refine ⟨fine_put hf (add_ok (hf i) (mul_ok (hf j) rfl e1) (e2 rfl)), ?_⟩
  rw [vals_put]; exact (absAcc_add h hi hj hij c hB).1

theorem accSub_fine {s : CLimbs} {B B' : Bnds} (hf : Fine s) (h : Within (vals s) B) {i j : ℕ} (hi : i < 24) (hj : j < 24)
    (hij : i ≠ j) (c : Int64) (hB : absAcc B i j (-c.toInt) = some B') :
    Fine (put s i (s i - s j * .of c)) ∧ Within (vals (put s i (s i - s j * .of c))) B' := by
  obtain ⟨e1, -, e2⟩ := acc_exact h hi hj c _ (Or.inr rfl) hB
  refine ⟨fine_put hf (sub_ok (hf i) (mul_ok (hf j) rfl e1) (e2 rfl)), ?_⟩
  rw [vals_put]; exact (absAcc_sub h hi hj hij c hB).1

theorem exec_fine (o : RedOp) {s : CLimbs} {B B' : Bnds} (hf : Fine s) (h : Within (vals s) B) (hB : absExec o B = some B') :
    Fine (exec o s) := by
  cases o with
  | carryR i =>
    simp only [absExec] at hB
    have hs : (i < 23) ∧ small (B.at i) := by
      unfold absCarry at hB; simp only at hB
      split at hB
      · rename_i hc; simp only [Bool.and_eq_true, decide_eq_true_eq] at hc; exact ⟨hc.2, hc.1.1⟩
      · cases hB
    have hb := (small_iff _).1 hs.2
    have hsi := h.2 i (by omega)
    have h20 : ((1 : Int64) <<< 20).toInt = 2 ^ 20 := by decide
    have ha : (vals s i + ((1 : Int64) <<< 20)).toInt = (vals s i).toInt + ((1 : Int64) <<< 20).toInt :=
      i64_add (by rw [h20]; omega) (by rw [h20]; omega)
    have hc : ((vals s i + ((1 : Int64) <<< 20)) >>> 21).toInt = ((vals s i).toInt + 2 ^ 20) / 2 ^ 21 := by
      rw [i64_shr _ 21 21 (by decide), ha, h20]
    exact carry_fine hf h i (2 ^ 20) _ _ (shr_ok (add_ok (hf i) (by decide) ha)) hc (by norm_num) hB
  | carryF i =>
    simp only [absExec] at hB
    have hc : (vals s i >>> 21).toInt = ((vals s i).toInt + 0) / 2 ^ 21 := by
      rw [i64_shr _ 21 21 (by decide), add_zero]
    exact carry_fine hf h i 0 _ _ (shr_ok (hf i)) hc (by norm_num) hB
  | fold j =>
    simp only [absExec] at hB
    split at hB
    · rename_i hj
      obtain ⟨hj1, hj2⟩ := hj
      simp only [Option.bind_eq_some_iff] at hB
      obtain ⟨B1, h1, B2, h2, B3, h3, B4, h4, B5, h5, B6, h6, h7⟩ := hB
      obtain ⟨f1, w1⟩ := accAdd_fine hf h (i := j - 12) (by omega) hj2 (by omega) 666643 h1
      obtain ⟨f2, w2⟩ := accAdd_fine f1 w1 (i := j - 11) (by omega) hj2 (by omega) 470296 h2
      obtain ⟨f3, w3⟩ := accAdd_fine f2 w2 (i := j - 10) (by omega) hj2 (by omega) 654183 h3
      obtain ⟨f4, w4⟩ := accSub_fine f3 w3 (i := j - 9) (by omega) hj2 (by omega) 997805 h4
      obtain ⟨f5, w5⟩ := accAdd_fine f4 w4 (i := j - 8) (by omega) hj2 (by omega) 136657 h5
      obtain ⟨f6, -⟩ := accSub_fine f5 w5 (i := j - 7) (by omega) hj2 (by omega) 683901 h6
      exact fine_put f6 rfl
    · cases hB

theorem execAll_fine (os : List RedOp) : ∀ {s : CLimbs} {B B' : Bnds}, Fine s → Within (vals s) B → absAll os B = some B' →
    Fine (ScalarChecked.execAll os s) ∧ Within (vals (ScalarChecked.execAll os s)) B' := by
  induction os with
  | nil => intro s B B' hf h hB; cases hB; exact ⟨hf, h⟩
  | cons o os ih =>
    intro s B B' hf h hB
    simp only [absAll, Option.bind_eq_some_iff] at hB
    obtain ⟨B1, h1, h2⟩ := hB
    refine ih (s := exec o s) (exec_fine o hf h h1) ?_ h2
    rw [vals_exec]; exact (exec_spec o h h1).1

theorem vals_execAll (os : List RedOp) : ∀ s : CLimbs, vals (ScalarChecked.execAll os s) = Scalar.execAll os (vals s) := by
  induction os with
  | nil => intro s; rfl
  | cons o os ih =>
    intro s
    show vals (ScalarChecked.execAll os (exec o s)) = Scalar.execAll os (o.exec (vals s))
    rw [ih, vals_exec]

/-! ## The argument lists -/

/-- Checked value of an expression. -/
def evalC (e : ℕ → I) : IExp → I
  | .v i => e i
  | .two => 2
  | .add x y => evalC e x + evalC e y
  | .mul x y => evalC e x * evalC e y
  | .neg x => -evalC e x

theorem evalC_val (e : ℕ → I) : ∀ x : IExp, (evalC e x).val = x.eval (fun i => (e i).val)
  | .v _ => rfl
  | .two => rfl
  | .add x y => by
    show (evalC e x).val + (evalC e y).val = _
    rw [evalC_val e x, evalC_val e y]; rfl
  | .mul x y => by
    show (evalC e x).val * (evalC e y).val = _
    rw [evalC_val e x, evalC_val e y]; rfl
  | .neg x => by
    show -(evalC e x).val = _
    rw [evalC_val e x]; rfl

theorem evalC_ok {e : ℕ → I} {b : ℕ → ℕ} (hok : ∀ i, (e i).ok = true) (he : ∀ i, |(e i).val.toInt| ≤ b i) :
    ∀ x : IExp, x.ok b = true → (evalC e x).ok = true := by
  intro x
  induction x with
  | v i => intro _; exact hok i
  | two => intro _; rfl
  | add x y hx hy =>
    intro h
    have hh := h
    simp only [IExp.ok, Bool.and_eq_true, decide_eq_true_eq] at h
    have s1 := (IExp.sound (e := fun i => (e i).val) he x h.1.1).1
    have s2 := (IExp.sound (e := fun i => (e i).val) he y h.1.2).1
    have s3 := (IExp.sound (e := fun i => (e i).val) he _ hh).1
    refine add_ok (hx h.1.1) (hy h.1.2) ?_
    rw [evalC_val, evalC_val, s1, s2]; exact s3
  | mul x y hx hy =>
    intro h
    have hh := h
    simp only [IExp.ok, Bool.and_eq_true, decide_eq_true_eq] at h
    have s1 := (IExp.sound (e := fun i => (e i).val) he x h.1.1).1
    have s2 := (IExp.sound (e := fun i => (e i).val) he y h.1.2).1
    have s3 := (IExp.sound (e := fun i => (e i).val) he _ hh).1
    refine mul_ok (hx h.1.1) (hy h.1.2) ?_
    rw [evalC_val, evalC_val, s1, s2]; exact s3
  | neg x hx =>
    intro h
    have s1 := (IExp.sound (e := fun i => (e i).val) he x h).1
    have s3 := (IExp.sound (e := fun i => (e i).val) he (.neg x) h).1
    refine exact_ok (hx h) ?_
    rw [evalC_val, s1]; exact s3

/-- The checked pieces of three scalars. -/
def envC (a b c : Scalar) (i : ℕ) : I :=
  if i < 12 then pieces a i else if i < 24 then pieces b (i - 12) else pieces c (i - 24)

theorem envC_val (a b c : Scalar) (i : ℕ) : (envC a b c i).val = envOf a b c i := by
  unfold envC envOf
  split
  · rfl
  · split <;> rfl

theorem envC_ok (a b c : Scalar) (i : ℕ) : (envC a b c i).ok = true := by
  unfold envC
  split
  · rfl
  · split <;> rfl

/-- The analysis by intervals goes through to the end. -/
def okAll (L : List IExp) : Bool := (absAll (reduceHead ++ reduceTail) (startB L)).isSome

theorem mulE_all : okAll mulE = true := by decide +kernel
theorem squareE_all : okAll squareE = true := by decide +kernel
theorem mulAddE_all : okAll mulAddE = true := by decide +kernel
theorem mulSubE_all : okAll mulSubE = true := by decide +kernel

theorem startRed_all : (absAll reduceTail startRed).isSome = true := by decide +kernel

theorem outcome_fine {s : CLimbs} (h : Fine s) : outcome s = some (pack (vals s)) := by
  unfold outcome
  rw [if_pos (List.all_eq_true.2 fun k _ => h k)]
  rfl

theorem fine_ofList {l : List I} (h : ∀ x ∈ l, x.ok = true) : Fine (ofList l) := by
  intro k
  unfold ofList
  rcases Nat.lt_or_ge k l.length with hk | hk
  · rw [List.getD_eq_getElem _ _ hk]; exact h _ (List.getElem_mem _)
  · rw [List.getD_eq_default _ _ hk]; rfl

theorem absAll_append (o p : List RedOp) : ∀ {B B' : Bnds}, absAll (o ++ p) B = some B' →
    ∃ B1, absAll o B = some B1 ∧ absAll p B1 = some B' := by
  induction o with
  | nil => intro B B' h; exact ⟨B, rfl, h⟩
  | cons x o ih =>
    intro B B' h
    simp only [List.cons_append, absAll, Option.bind_eq_some_iff] at h
    obtain ⟨B1, h1, h2⟩ := h
    obtain ⟨B2, h3, h4⟩ := ih h2
    exact ⟨B2, by simp only [absAll, h1, Option.bind_some, h3], h4⟩

theorem within_start (L : List IExp) (hok : ∀ x ∈ L, x.ok envB = true) (hlen : L.length = 23) (a b c : Scalar) :
    Within (Limbs.ofList (L.map (IExp.eval (envOf a b c)))) (startB L) := by
  have hs : ∀ i < 23, ((L.getD i .two).eval (envOf a b c)).toInt = (L.getD i .two).evalZ (fun i => (envOf a b c i).toInt) ∧
      |(L.getD i .two).evalZ (fun i => (envOf a b c i).toInt)| ≤ (L.getD i .two).bound envB ∧ (L.getD i .two).bound envB < 2 ^ 62 := by
    intro i hi
    apply IExp.sound (envOf_bound a b c)
    apply hok
    rw [List.getD_eq_getElem _ _ (by omega)]
    exact List.getElem_mem _
  have hl1 : ∀ i < 23, Limbs.ofList (L.map (IExp.eval (envOf a b c))) i = (L.getD i .two).eval (envOf a b c) := by
    intro i hi
    unfold Limbs.ofList
    rw [List.getD_eq_getElem _ _ (by simp; omega), List.getElem_map, List.getD_eq_getElem _ _ (by omega)]
  have hl2 : Limbs.ofList (L.map (IExp.eval (envOf a b c))) 23 = 0 := by
    unfold Limbs.ofList
    rw [List.getD_eq_default _ _ (by simp [hlen])]
  refine ⟨by simp [startB, hlen], ?_⟩
  intro i hi
  rcases Nat.lt_or_ge i 23 with h | h
  · have e : (startB L).at i = (-((L.getD i .two).bound envB : ℤ), ((L.getD i .two).bound envB : ℤ)) := by
      unfold startB Bnds.at
      rw [getD_map_append L _ .two _ i (by omega)]
    rw [e, hl1 i h, (hs i h).1]
    exact abs_le.1 (hs i h).2.1
  · have e23 : i = 23 := by omega
    subst e23
    have e : (startB L).at 23 = (0, 0) := by
      unfold startB Bnds.at
      rw [List.getD_append_right _ _ _ _ (by simp [hlen])]
      simp [hlen]
    rw [e, hl2]; decide

theorem map_val (L : List IExp) (a b c : Scalar) :
    (L.map (evalC (envC a b c))).map I.val = L.map (IExp.eval (envOf a b c)) := by
  rw [List.map_map]
  apply List.map_congr_left
  intro x _
  show (evalC (envC a b c) x).val = _
  rw [evalC_val]
  congr 1
  funext i
  exact envC_val a b c i

theorem reduce_fine (L : List IExp) (hL : okArgs L = true) (hA : okAll L = true) (a b c : Scalar) :
    outcome (reduce (L.map (evalC (envC a b c)))) = some (reduceAfterMul (L.map (IExp.eval (envOf a b c)))) := by
  unfold okArgs at hL
  simp only [Bool.and_eq_true, decide_eq_true_eq, List.all_eq_true] at hL
  obtain ⟨⟨hok, hlen⟩, -⟩ := hL
  obtain ⟨B', hB⟩ := Option.isSome_iff_exists.1 hA
  obtain ⟨B1, h1, h2⟩ := absAll_append _ _ hB
  have hf : Fine (ofList (L.map (evalC (envC a b c)))) := by
    refine fine_ofList fun x hx => ?_
    obtain ⟨y, hy, rfl⟩ := List.mem_map.1 hx
    exact evalC_ok (envC_ok a b c) (fun i => by rw [envC_val]; exact envOf_bound a b c i) y (hok y hy)
  have hv : vals (ofList (L.map (evalC (envC a b c)))) = Limbs.ofList (L.map (IExp.eval (envOf a b c))) := by
    rw [vals_ofList, map_val]
  have hw : Within (vals (ofList (L.map (evalC (envC a b c))))) (startB L) := by
    rw [hv]; exact within_start L hok hlen a b c
  obtain ⟨f1, w1⟩ := execAll_fine reduceHead hf hw h1
  obtain ⟨f2, -⟩ := execAll_fine reduceTail f1 w1 h2
  unfold reduce reduceAfterMul
  rw [outcome_fine f2, vals_execAll, vals_execAll, hv]

theorem mulC_eq (a b c : Scalar) : ScalarChecked.mulArgs (pieces a) (pieces b) = mulE.map (evalC (envC a b c)) := by
  simp only [ScalarChecked.mulArgs, mulE, List.map_cons, List.map_nil, evalC, envC, Nat.reduceLT, if_true, if_false,
    Nat.reduceSub]
theorem squareC_eq (a b c : Scalar) : ScalarChecked.squareArgs (pieces a) = squareE.map (evalC (envC a b c)) := by
  simp only [ScalarChecked.squareArgs, squareE, List.map_cons, List.map_nil, evalC, envC, Nat.reduceLT, if_true, if_false,
    Nat.reduceSub]
theorem mulAddC_eq (a b c : Scalar) :
    ScalarChecked.mulAddArgs (pieces a) (pieces b) (pieces c) = mulAddE.map (evalC (envC a b c)) := by
  simp only [ScalarChecked.mulAddArgs, mulAddE, List.map_cons, List.map_nil, evalC, envC, Nat.reduceLT, if_true, if_false,
    Nat.reduceSub]
theorem mulSubC_eq (a b c : Scalar) :
    ScalarChecked.mulSubArgs (pieces a) (pieces b) (pieces c) = mulSubE.map (evalC (envC a b c)) := by
  simp only [ScalarChecked.mulSubArgs, mulSubE, List.map_cons, List.map_nil, evalC, envC, Nat.reduceLT, if_true, if_false,
    Nat.reduceSub]

theorem mul_fine (a b : Scalar) : ScalarChecked.mul a b = some (Scalar.mul a b) := by
  unfold ScalarChecked.mul Scalar.mul
  rw [mulC_eq a b a, mulE_eq a b a]; exact reduce_fine mulE mulE_ok mulE_all a b a
theorem square_fine (a : Scalar) : ScalarChecked.square a = some (Scalar.square a) := by
  unfold ScalarChecked.square Scalar.square
  rw [squareC_eq a a a, squareE_eq a a a]; exact reduce_fine squareE squareE_ok squareE_all a a a
theorem mulAdd_fine (a b c : Scalar) : ScalarChecked.mulAdd a b c = some (Scalar.mulAdd a b c) := by
  unfold ScalarChecked.mulAdd Scalar.mulAdd
  rw [mulAddC_eq a b c, mulAddE_eq a b c]; exact reduce_fine mulAddE mulAddE_ok mulAddE_all a b c
theorem mulSub_fine (a b c : Scalar) : ScalarChecked.mulSub a b c = some (Scalar.mulSub a b c) := by
  unfold ScalarChecked.mulSub Scalar.mulSub
  rw [mulSubC_eq a b c, mulSubE_eq a b c]; exact reduce_fine mulSubE mulSubE_ok mulSubE_all a b c

theorem within_startRed (t : Bytes 64) : Within (Limbs.ofList (unpack64 t)) startRed := by
  have h23 : (Limbs.ofList (unpack64 t) 23).toInt = (leVal t / 2 ^ 483 : ℕ) := limb_top t
  have htop : leVal t / 2 ^ 483 < 2 ^ 29 := by
    rw [Nat.div_lt_iff_lt_mul (by positivity)]
    exact lt_of_lt_of_eq (leVal_lt t) (by decide +kernel)
  refine ⟨rfl, ?_⟩
  intro i hi
  rw [startRed_at i hi]
  rcases Nat.lt_or_ge i 23 with h | h
  · rw [if_pos h, unpack64_vals t i h]
    have : leVal t / 2 ^ (21 * i) % 2 ^ 21 < 2 ^ 21 := Nat.mod_lt _ (by norm_num)
    generalize leVal t / 2 ^ (21 * i) % 2 ^ 21 = d at *
    simp only; omega
  · have e : i = 23 := by omega
    subst e
    rw [if_neg (by norm_num), h23]
    generalize leVal t / 2 ^ 483 = d at *
    simp only; omega

theorem setReduced_fine (t : Bytes 64) : ScalarChecked.setReduced t = some (Scalar.setReduced t) := by
  obtain ⟨B', hB⟩ := Option.isSome_iff_exists.1 startRed_all
  have hv : vals (ofList ((unpack64 t).map .of)) = Limbs.ofList (unpack64 t) := by
    rw [vals_ofList, List.map_map, show I.val ∘ I.of = id from rfl, List.map_id]
  have hf : Fine (ofList ((unpack64 t).map .of)) := by
    refine fine_ofList fun x hx => ?_
    obtain ⟨y, -, rfl⟩ := List.mem_map.1 hx
    rfl
  obtain ⟨f, -⟩ := execAll_fine reduceTail hf (by rw [hv]; exact within_startRed t) hB
  unfold ScalarChecked.setReduced Scalar.setReduced
  rw [outcome_fine f, vals_execAll, hv]

/-! ## Inversion -/

theorem inv_some {mulO : Option Scalar → Option Scalar → Option Scalar} {squareO : Option Scalar → Option Scalar}
    (hm : ∀ a b, mulO (some a) (some b) = some (Scalar.mul a b)) (hs : ∀ a, squareO (some a) = some (Scalar.square a)) :
    ∀ (os : List InvOp) (r : ℕ → Scalar), os.foldl (fun r o => o.exec mulO squareO r) (fun k => some (r k)) =
      fun k => some (os.foldl (fun r o => o.exec Scalar.mul Scalar.square r) r k) := by
  intro os
  induction os with
  | nil => intro r; rfl
  | cons o os ih =>
    intro r
    simp only [List.foldl_cons]
    rw [← ih]
    congr 1
    funext k
    cases o with
    | sq d s => simp only [InvOp.exec, setReg, hs]; split <;> rfl
    | mul d a b => simp only [InvOp.exec, setReg, hm]; split <;> rfl

theorem repeat_some {squareO : Option Scalar → Option Scalar} (hs : ∀ a, squareO (some a) = some (Scalar.square a)) :
    ∀ (n : ℕ) (a : Scalar), Nat.repeat squareO n (some a) = some (Nat.repeat Scalar.square n a) := by
  intro n
  induction n with
  | zero => intro a; rfl
  | succ n ih => intro a; show squareO (Nat.repeat squareO n (some a)) = _; rw [ih, hs]; rfl

theorem inverse_fine (t : Scalar) : ScalarChecked.inverse t = some (Scalar.inverse t) := by
  unfold ScalarChecked.inverse Scalar.inverse
  simp only
  have hm : ∀ a b : Scalar, ((some a).bind fun a => (some b).bind fun b => ScalarChecked.mul a b) =
      some (Scalar.mul a b) := mul_fine
  have hs : ∀ a : Scalar, (some a).bind ScalarChecked.square = some (Scalar.square a) := square_fine
  rw [inv_some (mulO := fun a b => a.bind fun a => b.bind fun b => ScalarChecked.mul a b)
    (squareO := fun a => a.bind ScalarChecked.square) hm hs, repeat_some hs]
  exact hm _ _

end Ristretto.Proofs.ScalarChecked
