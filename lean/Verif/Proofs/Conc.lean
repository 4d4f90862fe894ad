import Verif.Model.Conc
import Mathlib.Data.List.Induction

/-!
# Interleavings of programs that do not write what others access

For any programs of loads and stores: if no program writes a location that another one accesses, then
under every scheduler each program sees the memory it would see if it ran alone.
-/

namespace Ristretto.Proofs.Conc
open Model.Conc
set_option autoImplicit false

variable {L : Type} {V : L → Type} {α β : Type}

theorem pure_eq (a : α) : (pure a : Prog V α) = .ret a := rfl
theorem bind_eq (p : Prog V α) (f : α → Prog V β) : (p >>= f) = p.bind f := rfl

/-- The locations a program may load (`R` or `W`) and store (`W`). -/
inductive Within (R W : L → Prop) : Prog V α → Prop
  | ret (a : α) : Within R W (.ret a)
  | fail : Within R W .fail
  | ld (l : L) (k : V l → Prog V α) : (R l ∨ W l) → (∀ v, Within R W (k v)) → Within R W (.ld l k)
  | st (l : L) (v : V l) (k : Prog V α) : W l → Within R W k → Within R W (.st l v k)

theorem Within.bind {R W : L → Prop} {p : Prog V α} {f : α → Prog V β} (hp : Within R W p)
    (hf : ∀ a, Within R W (f a)) : Within R W (p.bind f) := by
  induction hp with
  | ret a => exact hf a
  | fail => exact .fail
  | ld l k h _ ih => exact .ld l _ h ih
  | st l v k h _ ih => exact .st l v _ h ih

theorem Within.mono {R W R' W' : L → Prop} {p : Prog V α} (hp : Within R W p)
    (hR : ∀ l, R l → R' l ∨ W' l) (hW : ∀ l, W l → W' l) : Within R' W' p := by
  induction hp with
  | ret a => exact .ret a
  | fail => exact .fail
  | ld l k h _ ih => exact .ld l _ (h.elim (hR l) fun h => .inr (hW l h)) ih
  | st l v k h _ ih => exact .st l v _ (hW l h) ih

variable [DecidableEq L]

theorem run_bind (p : Prog V α) (f : α → Prog V β) (m : Memory V) :
    (p.bind f).run m = (p.run m).bind fun r => (f r.1).run r.2 := by
  induction p generalizing m with
  | ret a => rfl
  | fail => rfl
  | ld l k ih => exact ih (m l) m
  | st l v k ih => exact ih _

theorem run_step (p : Prog V α) (m : Memory V) : (p.step m).1.run (p.step m).2 = p.run m := by
  cases p <;> rfl

/-- `n` steps of a program alone. -/
def solo (p : Prog V α) (m : Memory V) : Nat → Prog V α × Memory V
  | 0 => (p, m)
  | n + 1 => (solo p m n).1.step (solo p m n).2

theorem solo_succ' (p : Prog V α) (m : Memory V) (n : Nat) :
    solo p m (n + 1) = solo (p.step m).1 (p.step m).2 n := by
  induction n with
  | zero => rfl
  | succ n ih => show (solo p m (n + 1)).1.step _ = _; rw [ih]; rfl

theorem run_solo (p : Prog V α) (m : Memory V) (n : Nat) :
    (solo p m n).1.run (solo p m n).2 = p.run m := by
  induction n with
  | zero => rfl
  | succ n ih => exact (run_step _ _).trans ih

/-- The program has finished or panicked. -/
def Done : Prog V α → Prop
  | .ret _ => True
  | .fail => True
  | _ => False

theorem Done.step {p : Prog V α} (h : Done p) (m : Memory V) : p.step m = (p, m) := by
  cases p <;> first | rfl | exact h.elim

theorem Done.solo {p : Prog V α} (h : Done p) (m : Memory V) (n : Nat) : solo p m n = (p, m) := by
  induction n with
  | zero => rfl
  | succ n ih => unfold Conc.solo; rw [ih]; exact h.step m

/-- Every program alone comes to an end. -/
theorem solo_done (p : Prog V α) (m : Memory V) : ∃ n, ∀ k, n ≤ k → Done (solo p m k).1 := by
  induction p generalizing m with
  | ret a => exact ⟨0, fun k _ => by rw [Done.solo (p := .ret a) trivial]; trivial⟩
  | fail => exact ⟨0, fun k _ => by rw [Done.solo (p := .fail) trivial]; trivial⟩
  | ld l k ih =>
    obtain ⟨n, hn⟩ := ih (m l) m
    refine ⟨n + 1, fun j hj => ?_⟩
    obtain ⟨j, rfl⟩ : ∃ i, j = i + 1 := ⟨j - 1, by omega⟩
    rw [solo_succ']
    exact hn j (by omega)
  | st l v k ih =>
    obtain ⟨n, hn⟩ := ih (Function.update m l v)
    refine ⟨n + 1, fun j hj => ?_⟩
    obtain ⟨j, rfl⟩ : ∃ i, j = i + 1 := ⟨j - 1, by omega⟩
    rw [solo_succ']
    exact hn j (by omega)

theorem Within.step {R W : L → Prop} {p : Prog V α} (hp : Within R W p) (m : Memory V) :
    Within R W (p.step m).1 := by
  cases hp with
  | ret a => exact .ret a
  | fail => exact .fail
  | ld l k _ h => exact h _
  | st l v k _ h => exact h

theorem Within.solo {R W : L → Prop} {p : Prog V α} (hp : Within R W p) (m : Memory V) (n : Nat) :
    Within R W (solo p m n).1 := by
  induction n with
  | zero => exact hp
  | succ n ih => exact ih.step _

/-- A step changes only locations in `W`. -/
theorem Within.frame {R W : L → Prop} {p : Prog V α} (hp : Within R W p) (m : Memory V) (l : L)
    (hl : ¬ W l) : (p.step m).2 l = m l := by
  cases hp with
  | ret a => rfl
  | fail => rfl
  | ld l k _ h => rfl
  | st l' v k h' h =>
    show Function.update m l' v l = m l
    rw [Function.update_of_ne]
    rintro rfl; exact hl h'

theorem Within.solo_frame {R W : L → Prop} {p : Prog V α} (hp : Within R W p) (m : Memory V) (l : L)
    (hl : ¬ W l) (n : Nat) : (Conc.solo p m n).2 l = m l := by
  induction n with
  | zero => rfl
  | succ n ih => exact ((hp.solo m n).frame _ l hl).trans ih

/-- A step depends only on locations in `R` and `W`. -/
theorem Within.agree {R W : L → Prop} {p : Prog V α} (hp : Within R W p) (m m' : Memory V)
    (h : ∀ l, R l ∨ W l → m l = m' l) :
    (p.step m).1 = (p.step m').1 ∧ ∀ l, R l ∨ W l → (p.step m).2 l = (p.step m').2 l := by
  cases hp with
  | ret a => exact ⟨rfl, h⟩
  | fail => exact ⟨rfl, h⟩
  | ld l k hl _ => exact ⟨by show k (m l) = k (m' l); rw [h l hl], h⟩
  | st l v k hl _ =>
    refine ⟨rfl, fun l' hl' => ?_⟩
    show Function.update m l v l' = Function.update m' l v l'
    by_cases e : l' = l
    · subst e; simp
    · rw [Function.update_of_ne e, Function.update_of_ne e, h l' hl']

variable {ι : Type} [DecidableEq ι]

theorem sched_append (c : Conf ι V α) (σ τ : List ι) : c.sched (σ ++ τ) = (c.sched σ).sched τ :=
  List.foldl_append

/-- No goroutine writes what another one accesses. -/
def Separated (R W : ι → L → Prop) : Prop := ∀ i j, i ≠ j → ∀ l, W i l → ¬ (R j l ∨ W j l)

/-- After any schedule goroutine `i` is where it would be if it had run alone for as many steps as it
was scheduled, and sees the same memory; what nobody writes is unchanged. -/
theorem sched_inv (R W : ι → L → Prop) (hs : Separated R W) (p : ι → Prog V α)
    (hp : ∀ i, Within (R i) (W i) (p i)) (m : Memory V) (σ : List ι) :
    (∀ i, ((⟨p, m⟩ : Conf ι V α).sched σ).threads i = (solo (p i) m (σ.count i)).1 ∧
      ∀ l, R i l ∨ W i l → ((⟨p, m⟩ : Conf ι V α).sched σ).mem l = (solo (p i) m (σ.count i)).2 l) ∧
    ∀ l, (∀ i, ¬ W i l) → ((⟨p, m⟩ : Conf ι V α).sched σ).mem l = m l := by
  induction σ using List.reverseRecOn with
  | nil => exact ⟨fun i => ⟨rfl, fun _ _ => rfl⟩, fun _ _ => rfl⟩
  | append_singleton σ j ih =>
    rw [sched_append]
    generalize (⟨p, m⟩ : Conf ι V α).sched σ = c at ih
    obtain ⟨h1, h2⟩ := ih
    have hw : Within (R j) (W j) (c.threads j) := by rw [(h1 j).1]; exact (hp j).solo m _
    refine ⟨fun i => ?_, fun l hl => ?_⟩
    · by_cases e : i = j
      · subst e
        have hc : (σ ++ [i]).count i = σ.count i + 1 := by simp
        have ha := hw.agree c.mem (solo (p i) m (σ.count i)).2 (h1 i).2
        rw [hc]
        refine ⟨?_, fun l hl => ?_⟩
        · show Function.update c.threads i _ i = _
          rw [Function.update_self, ha.1, (h1 i).1]; rfl
        · show ((c.threads i).step c.mem).2 l = _
          rw [ha.2 l hl, (h1 i).1]; rfl
      · have hc : (σ ++ [j]).count i = σ.count i := by
          rw [List.count_append, List.count_singleton]
          simp [Ne.symm e]
        rw [hc]
        refine ⟨?_, fun l hl => ?_⟩
        · show Function.update c.threads j _ i = _
          rw [Function.update_of_ne e]; exact (h1 i).1
        · show ((c.threads j).step c.mem).2 l = _
          rw [hw.frame c.mem l fun hj => hs j i (Ne.symm e) l hj hl]
          exact (h1 i).2 l hl
    · show ((c.threads j).step c.mem).2 l = _
      rw [hw.frame c.mem l (hl j)]
      exact h2 l hl

/-- A goroutine that finishes returns what it returns alone, and leaves what it leaves alone. -/
theorem sched_ret (R W : ι → L → Prop) (hs : Separated R W) (p : ι → Prog V α)
    (hp : ∀ i, Within (R i) (W i) (p i)) (m : Memory V) (σ : List ι) (i : ι) (a : α)
    (h : ((⟨p, m⟩ : Conf ι V α).sched σ).threads i = .ret a) :
    ∃ m', (p i).run m = some (a, m') ∧
      (∀ l, R i l ∨ W i l → ((⟨p, m⟩ : Conf ι V α).sched σ).mem l = m' l) ∧
      ∀ l, ¬ W i l → m' l = m l := by
  obtain ⟨h1, -⟩ := sched_inv R W hs p hp m σ
  refine ⟨(solo (p i) m (σ.count i)).2, ?_, (h1 i).2, fun l hl => (hp i).solo_frame m l hl _⟩
  rw [← run_solo (p i) m (σ.count i), ← (h1 i).1, h]; rfl

/-- A goroutine that panics panics alone. -/
theorem sched_fail (R W : ι → L → Prop) (hs : Separated R W) (p : ι → Prog V α)
    (hp : ∀ i, Within (R i) (W i) (p i)) (m : Memory V) (σ : List ι) (i : ι)
    (h : ((⟨p, m⟩ : Conf ι V α).sched σ).threads i = .fail) : (p i).run m = none := by
  obtain ⟨h1, -⟩ := sched_inv R W hs p hp m σ
  rw [← run_solo (p i) m (σ.count i), ← (h1 i).1, h]; rfl

/-- A goroutine that is scheduled often enough comes to an end. -/
theorem sched_done (R W : ι → L → Prop) (hs : Separated R W) (p : ι → Prog V α)
    (hp : ∀ i, Within (R i) (W i) (p i)) (m : Memory V) (i : ι) :
    ∃ n, ∀ σ : List ι, n ≤ σ.count i → Done (((⟨p, m⟩ : Conf ι V α).sched σ).threads i) := by
  obtain ⟨n, hn⟩ := solo_done (p i) m
  refine ⟨n, fun σ hσ => ?_⟩
  rw [((sched_inv R W hs p hp m σ).1 i).1]
  exact hn _ hσ

end Ristretto.Proofs.Conc
