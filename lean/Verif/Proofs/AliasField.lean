import Verif.Model.AliasField
import Verif.Proofs.Alias

/-!
# Powers and roots of field elements may be computed in place
-/

namespace Ristretto.Proofs.Alias
open Model Model.Alias FieldOps
set_option autoImplicit false

/-- The values of the local variables after a statement. -/
def FOp.val (x : Fe51) (ρ : ℕ → Fe51) : FOp → ℕ → Fe51
  | .sq d s => fun k => if k = d then Fe51.square (rv s) else ρ k
  | .sqn n d => fun k => if k = d then squareTimes n (ρ d) else ρ k
  | .mul d y z => fun k => if k = d then Fe51.mul (rv y) (rv z) else ρ k
where
  rv : Reg → Fe51
    | .t k => ρ k
    | .a => x

theorem sqnI_eq : ∀ (n : ℕ) (d : Addr) (m : FMem), sqnI n d m = assign m d (squareTimes n (m d))
  | 0, d, m => by
    funext x; by_cases h : x = d <;> simp [sqnI, squareTimes, assign_apply, h]
  | n + 1, d, m => by
    rw [sqnI, sqnI_eq n, squareI_eq]
    funext x
    by_cases h : x = d <;> simp [squareTimes, assign_apply, h]
    rfl

/-- Only four variables occur. -/
def Reg.lt4 : Reg → Prop
  | .t k => k < 4
  | .a => True

/-- Only four variables occur. -/
def FOp.lt4 : FOp → Prop
  | .sq d s => d < 4 ∧ Reg.lt4 s
  | .sqn _ d => d < 4
  | .mul d y z => d < 4 ∧ Reg.lt4 y ∧ Reg.lt4 z

/-- Not one of the four local variables from `b` on. -/
def Above (b : ℕ) (y : Addr) : Prop := ∀ k, k < 4 → y ≠ lf (b + k)

theorem FOp.run_val (b : ℕ) (a : Addr) (ha : Above b a) (op : FOp) (ho : FOp.lt4 op) (m : FMem) :
    (∀ k, op.runI b a m (lf (b + k)) = FOp.val (m a) (fun k => m (lf (b + k))) op k) ∧
    ∀ y, Above b y → op.runI b a m y = m y := by
  have hr : ∀ r : Reg, m (r.addr b a) = FOp.val.rv (m a) (fun k => m (lf (b + k))) r := by
    intro r; cases r <;> rfl
  have hlf : ∀ k d : ℕ, (lf (b + k) = lf (b + d)) = (k = d) := by
    intro k d; simp
  cases op with
  | sq d s =>
    simp only [FOp.runI, squareI_eq, assign_apply, FOp.val, hlf, hr]
    exact ⟨fun k => trivial, fun y hy => by rw [if_neg (hy d ho.1)]⟩
  | sqn n d =>
    simp only [FOp.runI, sqnI_eq, assign_apply, FOp.val, hlf]
    exact ⟨fun k => trivial, fun y hy => by rw [if_neg (hy d ho)]⟩
  | mul d y z =>
    simp only [FOp.runI, mulI_eq, assign_apply, FOp.val, hlf, hr]
    exact ⟨fun k => trivial, fun y hy => by rw [if_neg (hy d ho.1)]⟩

theorem ops_val (b : ℕ) (a : Addr) (ha : Above b a) : ∀ (ops : List FOp), (∀ op ∈ ops, FOp.lt4 op) → ∀ (m : FMem),
    (∀ k, ops.foldl (FOp.runI b a) m (lf (b + k)) = ops.foldl (FOp.val (m a)) (fun k => m (lf (b + k))) k) ∧
    ∀ y, Above b y → ops.foldl (FOp.runI b a) m y = m y
  | [], _, _ => ⟨fun _ => rfl, fun _ _ => rfl⟩
  | op :: ops, ho, m => by
    obtain ⟨h1, h2⟩ := FOp.run_val b a ha op (ho op (by simp)) m
    obtain ⟨h3, h4⟩ := ops_val b a ha ops (fun o h' => ho o (by simp [h'])) (op.runI b a m)
    simp only [List.foldl_cons]
    refine ⟨fun k => ?_, fun y hy => (h4 y hy).trans (h2 y hy)⟩
    rw [h3 k, h2 a ha, funext h1]

/-- Four local variables. -/
structure Four where
  t0 : Fe51
  t1 : Fe51
  t2 : Fe51
  t3 : Fe51

/-- Read a variable. -/
def Four.get (S : Four) : ℕ → Fe51
  | 0 => S.t0
  | 1 => S.t1
  | 2 => S.t2
  | _ => S.t3

/-- Write a variable. -/
def Four.set (S : Four) (v : Fe51) : ℕ → Four
  | 0 => { S with t0 := v }
  | 1 => { S with t1 := v }
  | 2 => { S with t2 := v }
  | _ => { S with t3 := v }

/-- The value of an operand. -/
def Four.rv (x : Fe51) (S : Four) : Reg → Fe51
  | .t k => S.get k
  | .a => x

/-- One statement. -/
def Four.step (x : Fe51) (S : Four) : FOp → Four
  | .sq d s => S.set (Fe51.square (S.rv x s)) d
  | .sqn n d => S.set (squareTimes n (S.get d)) d
  | .mul d y z => S.set (Fe51.mul (S.rv x y) (S.rv x z)) d

theorem Four.get_set (S : Four) (v : Fe51) {k d : ℕ} (hk : k < 4) (hd : d < 4) :
    (S.set v d).get k = if k = d then v else S.get k := by
  rcases k with _ | _ | _ | _ | k <;> rcases d with _ | _ | _ | _ | d <;> first | rfl | omega

theorem four_step (x : Fe51) {S : Four} {ρ : ℕ → Fe51} (h : ∀ k, k < 4 → ρ k = S.get k) {op : FOp} (ho : FOp.lt4 op) :
    ∀ k, k < 4 → FOp.val x ρ op k = (S.step x op).get k := by
  have hr : ∀ r : Reg, Reg.lt4 r → FOp.val.rv x ρ r = S.rv x r := by
    intro r hr; cases r with
    | t k => exact h k hr
    | a => rfl
  intro k hk
  cases op with
  | sq d s => simp only [FOp.val, Four.step, Four.get_set _ _ hk ho.1, hr s ho.2, h k hk]
  | sqn n d =>
    have hd : d < 4 := ho
    simp only [FOp.val, Four.step, Four.get_set _ _ hk hd, h k hk, h d hd]
  | mul d y z => simp only [FOp.val, Four.step, Four.get_set _ _ hk ho.1, hr y ho.2.1, hr z ho.2.2, h k hk]

theorem four_run (x : Fe51) : ∀ (ops : List FOp), (∀ op ∈ ops, FOp.lt4 op) → ∀ {S : Four} {ρ : ℕ → Fe51},
    (∀ k, k < 4 → ρ k = S.get k) → ∀ k, k < 4 → ops.foldl (FOp.val x) ρ k = (ops.foldl (Four.step x) S).get k
  | [], _, _, _, h, k, hk => h k hk
  | op :: ops, ho, _, _, h, k, hk => by
    simp only [List.foldl_cons]
    exact four_run x ops (fun o h' => ho o (by simp [h'])) (four_step x h (ho op (by simp))) k hk

theorem inverseOps_four (x : Fe51) (S : Four) :
    Fe51.mul (inverseOps.foldl (Four.step x) S).t1 (inverseOps.foldl (Four.step x) S).t0 = feInverse x := by
  simp only [inverseOps, List.foldl_cons, List.foldl_nil, Four.step, Four.set, Four.rv, Four.get]
  rfl

theorem exp22523Ops_four (x : Fe51) (S : Four) :
    Fe51.mul (exp22523Ops.foldl (Four.step x) S).t0 x = exp22523 x := by
  simp only [exp22523Ops, List.foldl_cons, List.foldl_nil, Four.step, Four.set, Four.rv, Four.get]
  rfl

theorem inverseOps_lt4 : ∀ op ∈ inverseOps, FOp.lt4 op := by
  simp [inverseOps, FOp.lt4, Reg.lt4]

theorem exp22523Ops_lt4 : ∀ op ∈ exp22523Ops, FOp.lt4 op := by
  simp [exp22523Ops, FOp.lt4, Reg.lt4]

theorem inverseI_eq (fe a : Addr) (m : FMem) (ha : Above 20 a) (y : Addr) (hy : Above 20 y) :
    inverseI fe a m y = assign m fe (feInverse (m a)) y := by
  obtain ⟨h1, h2⟩ := ops_val 20 a ha inverseOps inverseOps_lt4 m
  unfold inverseI
  rw [mulI_eq, assign_apply, assign_apply]
  split
  · rw [show lf 21 = lf (20 + 1) from rfl, show lf 20 = lf (20 + 0) from rfl, h1 1, h1 0]
    have := four_run (m a) inverseOps inverseOps_lt4 (ρ := fun k => m (lf (20 + k)))
      (S := ⟨m (lf 20), m (lf 21), m (lf 22), m (lf 23)⟩) (fun k hk => by
        rcases k with _ | _ | _ | _ | k <;> first | rfl | omega)
    rw [this 1 (by omega), this 0 (by omega)]
    exact inverseOps_four _ _
  · exact h2 y hy

theorem exp22523I_eq (fe a : Addr) (m : FMem) (ha : Above 30 a) (y : Addr) (hy : Above 30 y) :
    exp22523I fe a m y = assign m fe (exp22523 (m a)) y := by
  obtain ⟨h1, h2⟩ := ops_val 30 a ha exp22523Ops exp22523Ops_lt4 m
  unfold exp22523I
  rw [mulI_eq, assign_apply, assign_apply]
  split
  · rw [show lf 30 = lf (30 + 0) from rfl, h1 0, h2 a ha]
    have := four_run (m a) exp22523Ops exp22523Ops_lt4 (ρ := fun k => m (lf (30 + k)))
      (S := ⟨m (lf 30), m (lf 31), m (lf 32), m (lf 33)⟩) (fun k hk => by
        rcases k with _ | _ | _ | _ | k <;> first | rfl | omega)
    rw [this 0 (by omega)]
    exact exp22523Ops_four _ _
  · exact h2 y hy

/-- A variable that is not a local variable of these functions. -/
def FreeF (y : Addr) : Prop := ∀ n, 20 ≤ n → n < 70 → y ≠ lf n

theorem FreeF.ne {y : Addr} (h : FreeF y) (n : ℕ) (h1 : 20 ≤ n) (h2 : n < 70) : (y = lf n) = False := by
  simp only [h n h1 h2]
theorem FreeF.ne' {y : Addr} (h : FreeF y) (n : ℕ) (h1 : 20 ≤ n) (h2 : n < 70) : (lf n = y) = False := by
  simp only [Ne.symm (h n h1 h2)]
theorem FreeF.above20 {y : Addr} (h : FreeF y) : Above 20 y := fun k hk => h _ (by omega) (by omega)
theorem FreeF.above30 {y : Addr} (h : FreeF y) : Above 30 y := fun k hk => h _ (by omega) (by omega)
theorem above30_lf {n : ℕ} (h : 34 ≤ n) : Above 30 (lf n) := fun k hk => by simp; omega

theorem lf_ne {i j : ℕ} (h : i ≠ j) : lf i ≠ lf j := by simp [h]

theorem step_mul (fe a b : Addr) (m : FMem) :
    ∃ m', mulI fe a b m = m' ∧ m' fe = Fe51.mul (m a) (m b) ∧ ∀ y, y ≠ fe → m' y = m y :=
  ⟨_, mulI_eq _ _ _ _, by rw [assign_apply, if_pos rfl], fun y hy => by rw [assign_apply, if_neg hy]⟩

theorem step_sq (fe a : Addr) (m : FMem) :
    ∃ m', squareI fe a m = m' ∧ m' fe = Fe51.square (m a) ∧ ∀ y, y ≠ fe → m' y = m y :=
  ⟨_, squareI_eq _ _ _, by rw [assign_apply, if_pos rfl], fun y hy => by rw [assign_apply, if_neg hy]⟩

theorem step_set (fe a : Addr) (m : FMem) :
    ∃ m', setI fe a m = m' ∧ m' fe = m a ∧ ∀ y, y ≠ fe → m' y = m y :=
  ⟨_, setI_eq _ _ _, by rw [assign_apply, if_pos rfl], fun y hy => by rw [assign_apply, if_neg hy]⟩

theorem step_neg (fe a : Addr) (m : FMem) :
    ∃ m', negI fe a m = m' ∧ m' fe = Fe51.neg (m a) ∧ ∀ y, y ≠ fe → m' y = m y :=
  ⟨_, negI_eq _ _ _, by rw [assign_apply, if_pos rfl], fun y hy => by rw [assign_apply, if_neg hy]⟩

theorem step_store (fe : Addr) (v : Fe51) (m : FMem) :
    ∃ m', storeI fe v m = m' ∧ m' fe = v ∧ ∀ y, y ≠ fe → m' y = m y :=
  ⟨_, storeI_eq _ _ _, by rw [assign_apply, if_pos rfl], fun y hy => by rw [assign_apply, if_neg hy]⟩

theorem step_cond (fe a : Addr) (b : Int32) (m : FMem) :
    ∃ m', condSetI fe a b m = m' ∧ m' fe = Fe51.condSet (m fe) (m a) b ∧ ∀ y, y ≠ fe → m' y = m y :=
  ⟨_, condSetI_eq _ _ _ _, by rw [assign_apply, if_pos rfl], fun y hy => by rw [assign_apply, if_neg hy]⟩

theorem step_exp (i : ℕ) (hi : 34 ≤ i) (m : FMem) :
    ∃ m', exp22523I (lf i) (lf i) m = m' ∧ m' (lf i) = exp22523 (m (lf i)) ∧
      ∀ y, Above 30 y → y ≠ lf i → m' y = m y :=
  ⟨_, rfl, by rw [exp22523I_eq _ _ _ (above30_lf hi) _ (above30_lf hi), assign_apply, if_pos rfl],
    fun y h30 hy => by rw [exp22523I_eq _ _ _ (above30_lf hi) y h30, assign_apply, if_neg hy]⟩

/-- Side conditions of the steps below: two variables are different. -/
macro "ane" : tactic => `(tactic| first
  | (refine lf_ne ?_; decide)
  | (refine above30_lf ?_; decide)
  | (refine FreeF.above30 ?_; assumption)
  | (refine (‹FreeF _› : FreeF _) _ ?_ ?_ <;> decide)
  | (refine Ne.symm ((‹FreeF _› : FreeF _) _ ?_ ?_) <;> decide)
  | assumption)

theorem invSqrtS_eq (fe a : Addr) (m : FMem) (hf : FreeF fe) (ha : FreeF a) (y : Addr)
    (hn : ∀ n, 20 ≤ n → n < 50 → y ≠ lf n) : invSqrtS fe a m y = assign m fe (invSqrt (m a)) y := by
  have hy30 : Above 30 y := fun k hk => hn _ (by omega) (by omega)
  have n0 := hn 40 (by omega) (by omega)
  have n1 := hn 41 (by omega) (by omega)
  have n2 := hn 42 (by omega) (by omega)
  have n3 := hn 43 (by omega) (by omega)
  have n4 := hn 44 (by omega) (by omega)
  have n5 := hn 45 (by omega) (by omega)
  have n6 := hn 46 (by omega) (by omega)
  have a0 := ha 40 (by omega) (by omega)
  have a1 := ha 41 (by omega) (by omega)
  have a2 := ha 42 (by omega) (by omega)
  have a3 := ha 43 (by omega) (by omega)
  have a4 := ha 44 (by omega) (by omega)
  have a5 := ha 45 (by omega) (by omega)
  have a6 := ha 46 (by omega) (by omega)
  have b4 := (hf 44 (by omega) (by omega)).symm
  have b5 := (hf 45 (by omega) (by omega)).symm
  have b6 := (hf 46 (by omega) (by omega)).symm
  have ha30 := ha.above30
  unfold invSqrtS
  obtain ⟨m1, g1, e1, f1⟩ := step_sq (lf 40) a m
  obtain ⟨m2, g2, e2, f2⟩ := step_mul (lf 41) (lf 40) a m1
  obtain ⟨m3, g3, e3, f3⟩ := step_sq (lf 42) (lf 40) m2
  obtain ⟨m4, g4, e4, f4⟩ := step_mul (lf 43) (lf 40) (lf 42) m3
  obtain ⟨m5, g5, e5, f5⟩ := step_mul (lf 45) (lf 43) a m4
  obtain ⟨m6, g6, e6, f6⟩ := step_exp 45 (by omega) m5
  obtain ⟨m7, g7, e7, f7⟩ := step_mul (lf 45) (lf 45) (lf 41) m6
  obtain ⟨m8, g8, e8, f8⟩ := step_store (lf 46) (Fe51.mul (m7 (lf 45)) feI) m7
  obtain ⟨m9, g9, e9, f9⟩ := step_sq (lf 44) (lf 45) m8
  obtain ⟨m10, g10, e10, f10⟩ := step_mul (lf 44) (lf 44) a m9
  obtain ⟨m11, g11, e11, f11⟩ := step_set fe (lf 45) m10
  obtain ⟨m12, g12, e12, f12⟩ := step_cond fe (lf 46) (1 - isOneI (m11 (lf 44))) m11
  simp only [g1, g2, g3, g4, g5, g6, g7, g8, g9, g10, g11, g12]
  simp (discharger := ane) only [f1] at e2
  simp (discharger := ane) only [f2, e1] at e3
  simp (discharger := ane) only [f3, f2, e1, e3] at e4
  simp (discharger := ane) only [f4, f3, f2, f1, e4] at e5
  simp only [e5] at e6
  simp (discharger := ane) only [f6, f5, f4, f3, e2, e1, e6] at e7
  simp (discharger := ane) only [f8, e7] at e8 e9
  simp (discharger := ane) only [f9, f8, f7, f6, f5, f4, f3, f2, f1, e9] at e10
  simp (discharger := ane) only [f10, f9, f8, e7] at e11
  simp (discharger := ane) only [f11, f10, f9, e10, e8, e11] at e12
  rw [assign_apply]
  by_cases h : y = fe
  · rw [if_pos h, h, e12]; rfl
  · rw [if_neg h]
    simp (discharger := ane) only [f12, f11, f10, f9, f8, f7, f6, f5, f4, f3, f2, f1]

theorem sqrtS_eq (fe a : Addr) (m : FMem) (hf : FreeF fe) (ha : FreeF a) (y : Addr) (hy : FreeF y) :
    sqrtS fe a m y = assign m fe (feSqrt (m a)) y := by
  have n0 := hy 50 (by omega) (by omega)
  have n1 := hy 51 (by omega) (by omega)
  have a0 := ha 50 (by omega) (by omega)
  have b0 := hf 50 (by omega) (by omega)
  have b1 := hf 51 (by omega) (by omega)
  have b0' := b0.symm
  have b1' := b1.symm
  unfold sqrtS
  obtain ⟨m1, g1, e1, f1⟩ := step_set (lf 50) a m
  obtain ⟨m2, g2, e2, f2⟩ : ∃ m2, invSqrtS fe a m1 = m2 ∧ m2 fe = invSqrt (m1 a) ∧
      ∀ y, (∀ n, 20 ≤ n → n < 50 → y ≠ lf n) → y ≠ fe → m2 y = m1 y :=
    ⟨_, rfl, by rw [invSqrtS_eq fe a m1 hf ha fe (fun n h1 h2 => hf n h1 (by omega)), assign_apply, if_pos rfl],
      fun y h1 h2 => by rw [invSqrtS_eq fe a m1 hf ha y h1, assign_apply, if_neg h2]⟩
  obtain ⟨m3, g3, e3, f3⟩ := step_mul fe fe (lf 50) m2
  obtain ⟨m4, g4, e4, f4⟩ := step_neg (lf 51) fe m3
  obtain ⟨m5, g5, e5, f5⟩ := step_cond fe (lf 51) (isNegativeI (m4 fe)) m4
  simp only [g1, g2, g3, g4, g5]
  simp (discharger := ane) only [f1] at e2
  rw [f2 (lf 50) (fun n h1 h2 => by simp; omega) b0', e1, e2] at e3
  rw [e3] at e4
  simp (discharger := ane) only [f4, e3, e4] at e5
  rw [assign_apply]
  by_cases h : y = fe
  · rw [if_pos h, h, e5]; rfl
  · rw [if_neg h, f5 y h, f4 y n1, f3 y h, f2 y (fun n h1 h2 => hy n h1 (by omega)) h, f1 y n0]

theorem invSqrtIS_eq (fe a : Addr) (m : FMem) (hf : FreeF fe) (ha : FreeF a) :
    (∀ y, FreeF y → (invSqrtIS fe a m).1 y = assign m fe (invSqrtI (m a)).1 y) ∧
    (invSqrtIS fe a m).2 = (invSqrtI (m a)).2 := by
  have a0 := ha 60 (by omega) (by omega)
  have a1 := ha 61 (by omega) (by omega)
  have a2 := ha 62 (by omega) (by omega)
  have a3 := ha 63 (by omega) (by omega)
  have a4 := ha 64 (by omega) (by omega)
  have a5 := ha 65 (by omega) (by omega)
  have a6 := ha 66 (by omega) (by omega)
  have ha30 := ha.above30
  unfold invSqrtIS
  obtain ⟨m1, g1, e1, f1⟩ := step_sq (lf 60) a m
  obtain ⟨m2, g2, e2, f2⟩ := step_mul (lf 61) (lf 60) a m1
  obtain ⟨m3, g3, e3, f3⟩ := step_sq (lf 62) (lf 60) m2
  obtain ⟨m4, g4, e4, f4⟩ := step_mul (lf 63) (lf 60) (lf 62) m3
  obtain ⟨m5, g5, e5, f5⟩ := step_mul (lf 65) (lf 63) a m4
  obtain ⟨m6, g6, e6, f6⟩ := step_exp 65 (by omega) m5
  obtain ⟨m7, g7, e7, f7⟩ := step_mul (lf 65) (lf 65) (lf 61) m6
  obtain ⟨m8, g8, e8, f8⟩ := step_sq (lf 64) (lf 65) m7
  obtain ⟨m9, g9, e9, f9⟩ := step_mul (lf 64) (lf 64) a m8
  obtain ⟨m10, g10, e10, f10⟩ := step_neg (lf 64) (lf 64) m9
  obtain ⟨m11, g11, e11, f11⟩ := step_store (lf 66) feOne m10
  obtain ⟨m12, g12, e12, f12⟩ := step_store (lf 66)
    (Fe51.condSet (m11 (lf 66)) feI (isOneI (m10 (lf 64)) + feEqualsI (m9 (lf 64)) feI)) m11
  obtain ⟨m13, g13, e13, f13⟩ := step_mul (lf 65) (lf 65) (lf 66) m12
  obtain ⟨m14, g14, e14, f14⟩ := step_set fe (lf 65) m13
  simp only [g1, g2, g3, g4, g5, g6, g7, g8, g9, g10, g11, g12, g13, g14]
  simp (discharger := ane) only [f1] at e2
  simp (discharger := ane) only [f2, e1] at e3
  simp (discharger := ane) only [f3, f2, e1, e3] at e4
  simp (discharger := ane) only [f4, f3, f2, f1, e4] at e5
  simp only [e5] at e6
  simp (discharger := ane) only [f6, f5, f4, f3, e2, e1, e6] at e7
  simp (discharger := ane) only [e7] at e8
  simp (discharger := ane) only [f8, f7, f6, f5, f4, f3, f2, f1, e8] at e9
  simp only [e9] at e10
  simp only [e11, e10, e9] at e12
  simp (discharger := ane) only [f12, f11, f10, f9, f8, e7, e12] at e13
  simp only [e13] at e14
  refine ⟨fun y hy => ?_, ?_⟩
  · have hy30 := hy.above30
    have n0 := hy 60 (by omega) (by omega)
    have n1 := hy 61 (by omega) (by omega)
    have n2 := hy 62 (by omega) (by omega)
    have n3 := hy 63 (by omega) (by omega)
    have n4 := hy 64 (by omega) (by omega)
    have n5 := hy 65 (by omega) (by omega)
    have n6 := hy 66 (by omega) (by omega)
    rw [assign_apply]
    by_cases h : y = fe
    · rw [if_pos h, h, e14]; rfl
    · rw [if_neg h]
      simp (discharger := ane) only [f14, f13, f12, f11, f10, f9, f8, f7, f6, f5, f4, f3, f2, f1]
  · rw [e9, e10]; rfl

end Ristretto.Proofs.Alias
