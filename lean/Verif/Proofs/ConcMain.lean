import Verif.Proofs.ConcWithin

/-!
# Goroutines that do not share what they set
-/

namespace Ristretto.Proofs.Conc
open Model Model.Conc FieldOps Spec.Conc
set_option autoImplicit false

section
variable {L : Type} {V : L → Type} {α ι : Type} [DecidableEq L] [DecidableEq ι]

/-- A goroutine running alone for a while. -/
theorem sched_replicate (c : Conf ι V α) (i : ι) (n : Nat) :
    c.sched (List.replicate n i) =
      ⟨Function.update c.threads i (solo (c.threads i) c.mem n).1, (solo (c.threads i) c.mem n).2⟩ := by
  induction n with
  | zero =>
    show c = ⟨Function.update c.threads i (c.threads i), c.mem⟩
    rw [Function.update_eq_self]
  | succ n ih =>
    rw [List.replicate_succ', sched_append, ih]
    simp only [Conf.sched, List.foldl_cons, List.foldl_nil, Conf.step, Function.update_self,
      Function.update_idem]
    rfl

theorem done_cases {p : Prog V α} (h : Done p) : (∃ a, p = .ret a) ∨ p = .fail := by
  cases p with
  | ret a => exact .inl ⟨a, rfl⟩
  | fail => exact .inr rfl
  | ld l k => exact h.elim
  | st l v k => exact h.elim

theorem solo_of_done {p : Prog V α} {m : Memory V} {n k : Nat} (h : Done (solo p m n).1)
    (h' : Done (solo p m k).1) : solo p m n = solo p m k := by
  have key : ∀ n k, n ≤ k → Done (solo p m n).1 → solo p m k = solo p m n := by
    intro n k hnk h
    induction k with
    | zero => obtain rfl : n = 0 := by omega
              rfl
    | succ k ih =>
      by_cases e : n = k + 1
      · rw [e]
      · have := ih (by omega)
        show (solo p m k).1.step _ = _
        rw [this]; exact h.step _
  rcases Nat.le_total n k with e | e
  · exact (key n k e h).symm
  · exact key k n e h'

/-- Complete schedules all have the same effect. -/
theorem sched_unique (R W : ι → L → Prop) (hs : Separated R W) (p : ι → Prog V α)
    (hp : ∀ i, Within (R i) (W i) (p i)) (m : Memory V) (σ τ : List ι)
    (hσ : ∀ i, Done (((⟨p, m⟩ : Conf ι V α).sched σ).threads i))
    (hτ : ∀ i, Done (((⟨p, m⟩ : Conf ι V α).sched τ).threads i)) :
    (⟨p, m⟩ : Conf ι V α).sched σ = (⟨p, m⟩ : Conf ι V α).sched τ := by
  obtain ⟨s1, s2⟩ := sched_inv R W hs p hp m σ
  obtain ⟨t1, t2⟩ := sched_inv R W hs p hp m τ
  have he : ∀ i, solo (p i) m (σ.count i) = solo (p i) m (τ.count i) := fun i =>
    solo_of_done ((s1 i).1 ▸ hσ i) ((t1 i).1 ▸ hτ i)
  have h1 : ((⟨p, m⟩ : Conf ι V α).sched σ).threads = ((⟨p, m⟩ : Conf ι V α).sched τ).threads := by
    funext i
    rw [(s1 i).1, (t1 i).1, he i]
  have h2 : ((⟨p, m⟩ : Conf ι V α).sched σ).mem = ((⟨p, m⟩ : Conf ι V α).sched τ).mem := by
    funext l
    by_cases h : ∃ i, W i l
    · obtain ⟨i, hi⟩ := h
      rw [(s1 i).2 l (.inr hi), (t1 i).2 l (.inr hi), he i]
    · have h' : ∀ i, ¬ W i l := fun i hi => h ⟨i, hi⟩
      rw [s2 l h', t2 l h']
  revert h1 h2
  generalize (⟨p, m⟩ : Conf ι V α).sched σ = c
  generalize (⟨p, m⟩ : Conf ι V α).sched τ = d
  intro h1 h2
  cases c; cases d; simp_all

theorem Within.stores {R W : L → Prop} {p : Prog V α} (hp : Within R W p) {l : L} (h : Stores l p) : W l := by
  cases h with
  | st v k => cases hp with
    | st _ _ _ h _ => exact h

theorem Within.accesses {R W : L → Prop} {p : Prog V α} (hp : Within R W p) {l : L} (h : Accesses l p) :
    R l ∨ W l := by
  cases h with
  | ld k => cases hp with
    | ld _ _ h _ => exact h
  | st v k => cases hp with
    | st _ _ _ h _ => exact .inr h

theorem no_race (R W : ι → L → Prop) (hs : Separated R W) (p : ι → Prog V α)
    (hp : ∀ i, Within (R i) (W i) (p i)) (m : Memory V) (σ : List ι) :
    ¬ Race ((⟨p, m⟩ : Conf ι V α).sched σ) := by
  rintro ⟨i, j, l, hne, h1, h2⟩
  obtain ⟨s1, -⟩ := sched_inv R W hs p hp m σ
  rw [(s1 i).1] at h1
  rw [(s1 j).1] at h2
  exact hs i j hne l (((hp i).solo m _).stores h1) (((hp j).solo m _).accesses h2)
end

variable {F : Type} [FieldOps F] [Words F] {ι : Type} [DecidableEq ι]

theorem same_of {m m' : Memory (Val F)} {x : Var} (h : ∀ l, locVar l = x → m l = m' l) :
    Same (view m) (view m') x := by
  cases x with
  | pt p =>
    have : ∀ f, feAt m p f = feAt m' p f := fun f =>
      congrArg _ (List.map_congr_left fun k _ => h (.pt p f k) rfl)
    simp only [Same, view, this]
  | sc s =>
    have : ∀ i, m (.sc s i) = m' (.sc s i) := fun i => h _ rfl
    simp only [Same, view, this]
  | tab t =>
    have : ∀ r j f, tabAt m t r j f = tabAt m' t r j f := fun r j f =>
      congrArg _ (List.map_congr_left fun k _ => h (.tab t r j f k) rfl)
    simp only [Same, view, this]

theorem separated_of {inPlace : Bool} {progs : ι → List Cmd} (h : Separate (setsIn inPlace) progs) :
    Separated (fun i l => UsedBy (progs i) (locVar l)) (fun i l => SetBy inPlace (progs i) (locVar l)) := by
  rintro i j hne l ⟨c, hc, hx⟩ h'
  have : UsedBy (progs j) (locVar l) := by
    rcases h' with h' | ⟨d, hd, hy⟩
    · exact h'
    · exact ⟨d, hd, sets_uses inPlace d _ hy⟩
  obtain ⟨d, hd, hy⟩ := this
  exact h i j hne c hc _ hx d hd hy

section
variable [LawfulWords F]

/-- A goroutine that runs alone on a memory. -/
theorem run_go (e : Env F) (cs : List Cmd) (m : Memory (Val F)) :
    ((goP e cs).run m).map (fun x => (view x.2, x.1)) = Model.run e (view m) cs := spec_go e cs (view m) m rfl

variable (inPlace : Bool) [BytesWithin F inPlace] (e : Env F) (progs : ι → List Cmd)
  (hsep : Separate (setsIn inPlace) progs) (m : Memory (Val F)) (σ : List ι)
include hsep

theorem go_ret (i : ι) (outs : List Out) (h : ((start e progs m).sched σ).threads i = .ret outs) :
    ∃ v, Model.run e (view m) (progs i) = some (v, outs) ∧
      ∀ x, UsedBy (progs i) x → Same (view ((start e progs m).sched σ).mem) v x := by
  obtain ⟨m', h1, h2, -⟩ := sched_ret _ _ (separated_of hsep) (fun i => goP e (progs i))
    (fun i => in_go inPlace e (progs i)) m σ i outs h
  refine ⟨view m', ?_, fun x hx => same_of fun l hl => h2 l (.inl (by rw [hl]; exact hx))⟩
  rw [← run_go, h1]; rfl

theorem go_fail (i : ι) (h : ((start e progs m).sched σ).threads i = .fail) :
    Model.run e (view m) (progs i) = none := by
  have := sched_fail _ _ (separated_of hsep) (fun i => goP e (progs i))
    (fun i => in_go inPlace e (progs i)) m σ i h
  rw [← run_go, this]; rfl

omit [LawfulWords F] in
theorem go_unchanged (x : Var) (hx : ∀ i, ¬ SetBy inPlace (progs i) x) :
    Same (view ((start e progs m).sched σ).mem) (view m) x := by
  obtain ⟨-, h⟩ := sched_inv _ _ (separated_of hsep) (fun i => goP e (progs i))
    (fun i => in_go inPlace e (progs i)) m σ
  exact same_of fun l hl => h l fun i => by rw [hl]; exact hx i

omit [LawfulWords F] in
theorem go_done (i : ι) : ∃ n, ∀ σ : List ι, n ≤ σ.count i →
    (∃ outs, ((start e progs m).sched σ).threads i = .ret outs) ∨
      ((start e progs m).sched σ).threads i = .fail := by
  obtain ⟨n, h⟩ := sched_done _ _ (separated_of hsep) (fun i => goP e (progs i))
    (fun i => in_go inPlace e (progs i)) m i
  exact ⟨n, fun σ hσ => done_cases (h σ hσ)⟩

omit [LawfulWords F] in
theorem go_no_race : ¬ Race ((start e progs m).sched σ) :=
  no_race _ _ (separated_of hsep) (fun i => goP e (progs i)) (fun i => in_go inPlace e (progs i)) m σ

/-- The goroutines one after another, in any order. -/
theorem go_serial (hfin : Finished ((start e progs m).sched σ)) (order : List ι) (hnd : order.Nodup)
    (hall : ∀ i, i ∈ order ∨ progs i = []) :
    ∃ outs : ι → List Out, (∀ i, ((start e progs m).sched σ).threads i = .ret (outs i)) ∧
      Model.run e (view m) (order.flatMap progs) =
        some (view ((start e progs m).sched σ).mem, order.flatMap outs) := by
  choose outs houts using hfin
  refine ⟨outs, houts, ?_⟩
  -- a schedule that runs them one after another
  have key : ∀ (order : List ι), order.Nodup → ∃ τ : List ι,
      (∀ i ∈ order, ((start e progs m).sched τ).threads i = .ret (outs i)) ∧
      (∀ i, i ∉ order → ((start e progs m).sched τ).threads i = goP e (progs i)) ∧
      Model.run e (view m) (order.flatMap progs) =
        some (view ((start e progs m).sched τ).mem, order.flatMap outs) := by
    intro order
    induction order using List.reverseRecOn with
    | nil => exact fun _ => ⟨[], by simp, fun _ _ => rfl, rfl⟩
    | append_singleton order i ih =>
      intro hnd
      have hnd' := List.nodup_append.1 hnd
      obtain ⟨τ, h1, h2, h3⟩ := ih hnd'.1
      have hi : i ∉ order := fun hi => hnd'.2.2 i hi i (by simp) rfl
      obtain ⟨n, hn⟩ := solo_done (goP e (progs i)) ((start e progs m).sched τ).mem
      have hdone := hn n (Nat.le_refl n)
      have hthr : (((start e progs m).sched (τ ++ List.replicate n i))).threads i =
          (solo (goP e (progs i)) ((start e progs m).sched τ).mem n).1 := by
        rw [sched_append, sched_replicate, h2 i hi]
        exact Function.update_self (β := fun _ => M F (List Out)) _ _ _
      have hmem : (((start e progs m).sched (τ ++ List.replicate n i))).mem =
          (solo (goP e (progs i)) ((start e progs m).sched τ).mem n).2 := by
        rw [sched_append, sched_replicate, h2 i hi]
      -- its result is the one it has in the schedule `σ`
      have hret : (solo (goP e (progs i)) ((start e progs m).sched τ).mem n).1 = .ret (outs i) := by
        rcases done_cases hdone with ⟨a, ha⟩ | ha
        · rw [ha] at hthr ⊢
          obtain ⟨v, e1, -⟩ := go_ret inPlace e progs hsep m _ i a hthr
          obtain ⟨w, e2, -⟩ := go_ret inPlace e progs hsep m σ i _ (houts i)
          rw [e1] at e2
          injection e2 with e2
          injection e2 with _ e2
          rw [e2]
        · rw [ha] at hthr
          have e1 := go_fail inPlace e progs hsep m _ i hthr
          obtain ⟨w, e2, -⟩ := go_ret inPlace e progs hsep m σ i _ (houts i)
          rw [e1] at e2; cases e2
      refine ⟨τ ++ List.replicate n i, ?_, ?_, ?_⟩
      · intro j hj
        by_cases hji : j = i
        · subst hji; rw [hthr, hret]
        · have hj' : j ∈ order := by
            rcases List.mem_append.1 hj with h | h
            · exact h
            · exact absurd (by simpa using h) hji
          rw [sched_append, sched_replicate]
          exact (Function.update_of_ne hji _ _).trans (h1 j hj')
      · intro j hj
        have hji : j ≠ i := by rintro rfl; exact hj (by simp)
        rw [sched_append, sched_replicate]
        exact (Function.update_of_ne hji _ _).trans (h2 j fun h => hj (by simp [h]))
      · have hrun : Model.run e (view ((start e progs m).sched τ).mem) (progs i) =
            some (view ((start e progs m).sched (τ ++ List.replicate n i)).mem, outs i) := by
          rw [← run_go, ← run_solo _ _ n, hret, hmem]; rfl
        have happ : ∀ (cs ds : List Cmd) (v : Mem F), Model.run e v (cs ++ ds) =
            (Model.run e v cs).bind fun r => (Model.run e r.1 ds).map fun q => (q.1, r.2 ++ q.2) := by
          intro cs ds
          induction cs with
          | nil =>
            intro v
            simp only [List.nil_append, Model.run, Option.bind_some]
            cases Model.run e v ds <;> rfl
          | cons c cs ih =>
            intro v
            simp only [List.cons_append, Model.run, Option.bind_eq_bind]
            cases exec e v c with
            | none => rfl
            | some r =>
              simp only [Option.bind_some, ih]
              cases Model.run e r.1 cs with
              | none => rfl
              | some q =>
                simp only [Option.bind_some]
                cases Model.run e q.1 ds <;> rfl
        rw [List.flatMap_append, List.flatMap_append, happ, h3, Option.bind_some]
        simp only [List.flatMap_cons, List.flatMap_nil, List.append_nil, hrun, Option.map_some]
  obtain ⟨τ, h1, h2, h3⟩ := key order hnd
  have hτ : ∀ i, Done (((start e progs m).sched τ).threads i) := by
    intro i
    by_cases hi : i ∈ order
    · rw [h1 i hi]; trivial
    · rw [h2 i hi]
      rcases hall i with h | h
      · exact absurd h hi
      · rw [h]; trivial
  have hσ : ∀ i, Done (((start e progs m).sched σ).threads i) := fun i => by rw [houts i]; trivial
  have := sched_unique _ _ (separated_of hsep) (fun i => goP e (progs i))
    (fun i => in_go inPlace e (progs i)) m σ τ hσ hτ
  have hmem : ((start e progs m).sched σ).mem = ((start e progs m).sched τ).mem := congrArg Conf.mem this
  rw [hmem]; exact h3
end

end Ristretto.Proofs.Conc
