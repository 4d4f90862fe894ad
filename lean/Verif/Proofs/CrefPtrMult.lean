import Verif.Proofs.CrefPtrGroup
import Verif.Proofs.CrefLoopsMult

/-!
Scalar multiplication of Model/CrefPtr.lean.
-/

set_option autoImplicit false
set_option linter.unusedSimpArgs false
set_option linter.unusedSectionVars false

namespace Ristretto.Proofs.CrefPtr
open Ristretto Ristretto.Model Ristretto.Model.CrefPtr
open Ristretto.Model.Cref (CrefOps CrefTab AffPt Sc toByte cnot)

section
variable {F : Type}

theorem setPt_other (r : Obj) (V : ExtPt F) (m : PMem F) (p : Obj) (o : Nat) (h : p ≠ r) : setPt r V m ⟨p, o⟩ = m ⟨p, o⟩ := by
  simp only [setPt, upd_at, Addr.mk.injEq, h, false_and, if_false]

theorem setPt_at (r : Obj) (V : ExtPt F) (m m' : PMem F) (h : ∀ o, m ⟨r, o⟩ = m' ⟨r, o⟩) (o : Nat) : setPt r V m ⟨r, o⟩ = setPt r V m' ⟨r, o⟩ := by
  simp only [setPt, upd_at, h]

theorem setPt_twice (r : Obj) (V W : ExtPt F) (m : PMem F) : setPt r V (setPt r W m) = setPt r V m := by
  funext a
  simp only [setPt, upd_at]
  split_ifs <;> rfl

theorem HasPt.set (r : Obj) (V : ExtPt F) (m : PMem F) : HasPt (setPt r V m) r V := by
  constructor <;> simp [setPt, upd_at]

theorem HasPt.of_eq {m M : PMem F} {p : Obj} {P : ExtPt F} (h : HasPt m p P) (e : ∀ o, M ⟨p, o⟩ = m ⟨p, o⟩) : HasPt M p P :=
  ⟨by rw [e, h.x], by rw [e, h.y], by rw [e, h.z], by rw [e, h.t]⟩

theorem HasPt.self {hi : Nat} {r : Obj} {V : ExtPt F} {m M : PMem F} (h : Out hi (setPt r V m) M) (hr : Hi hi r) : HasPt M r V :=
  (HasPt.set r V m).of_eq (h r hr)

theorem HasPt.other {hi : Nat} {r : Obj} {V : ExtPt F} {m M : PMem F} {p : Obj} {P : ExtPt F} (h : HasPt m p P) (hM : Out hi (setPt r V m) M) (hp : Hi hi p)
    (hpr : p ≠ r) : HasPt M p P :=
  h.of_eq fun o => by rw [hM p hp o, setPt_other _ _ _ _ _ hpr]

theorem HasPt.out {hi : Nat} {m M : PMem F} {p : Obj} {P : ExtPt F} (h : HasPt m p P) (hM : Out hi m M) (hp : Hi hi p) : HasPt M p P := h.of_eq (hM p hp)

/-- A write to the receiver after others. -/
theorem Out.set {hi : Nat} {r : Obj} {V : ExtPt F} {m M : PMem F} (h : Out hi m M) : Out hi (setPt r V m) (setPt r V M) := by
  intro p hp o
  by_cases e : p = r
  · subst e
    exact setPt_at _ _ _ _ (fun o => h p hp o) o
  · rw [setPt_other _ _ _ _ _ e, setPt_other _ _ _ _ _ e, h p hp o]

theorem Out.reset {hi : Nat} {r : Obj} {V W : ExtPt F} {m M : PMem F} (h : Out hi (setPt r W m) M) : Out hi (setPt r V m) (setPt r V M) := by
  have := h.set (r := r) (V := V)
  rwa [setPt_twice] at this

/-- A write to a local variable. -/
theorem Out.setLoc {hi k : Nat} {V : ExtPt F} {m : PMem F} (hk : k < hi) : Out hi m (setPt (.loc k) V m) := fun p hp o =>
  setPt_other _ _ _ _ _ (hp k hk)

variable [O : CrefOps F]

theorem wp_mono {α : Type} {f : Option α} {P Q : α → Prop} (h : Wp f P) (hq : ∀ a, P a → Q a) : Wp f Q := by
  obtain ⟨a, e, h⟩ := h
  exact ⟨a, e, hq a h⟩

theorem wp_bind {α β : Type} {f : Option α} {k : α → Option β} {P : α → Prop} {Q : β → Prop} (h : Wp f P) (hk : ∀ a, P a → Wp (k a) Q) : Wp (f.bind k) Q := by
  obtain ⟨a, rfl, h⟩ := h
  exact hk a h

/-- A loop. -/
theorem wp_iter {σ : Type} (body : Int → σ → Option σ) (Inv : Nat → σ → Prop) (n : Nat) : ∀ (k : Nat) (st : σ), Inv k st →
    (∀ j st, k ≤ j → j < k + n → Inv j st → Wp (body (j : Int) st) (Inv (j + 1))) → Wp (Loops.iter 1 body n (k : Int) st) (Inv (k + n)) := by
  induction n with
  | zero => intro k st h _; exact wp_some h
  | succ n ih =>
    intro k st h hb
    refine wp_bind (hb k st le_rfl (by omega) h) fun st' h' => ?_
    have := ih (k + 1) st' h' (fun j st hj hj' => hb j st (by omega) (by omega))
    rw [show k + 1 + n = k + (n + 1) from by omega] at this
    exact this

theorem wp_forLt {σ : Type} (body : Int → σ → Option σ) (Inv : Nat → σ → Prop) (a b : Nat) (hab : a ≤ b) (st : σ) (h : Inv a st)
    (hb : ∀ j st, a ≤ j → j < b → Inv j st → Wp (body (j : Int) st) (Inv (j + 1))) : Wp (Loops.forLt (a : Int) (b : Int) 1 body st) (Inv b) := by
  rw [CrefLoops.forLt_nat' a b hab]
  have := wp_iter body Inv (b - a) a st h (fun j st hj hj' => hb j st hj (by omega))
  rwa [show a + (b - a) = b from by omega] at this

/-- A loop that counts down. -/
theorem wp_down {σ : Type} (body : Int → σ → Option σ) (Inv : Nat → σ → Prop) (n : Nat) : ∀ (st : σ), Inv n st →
    (∀ j st, j < n → Inv (j + 1) st → Wp (body (j : Int) st) (Inv j)) → Wp (Loops.iter (-1) body n ((n : Int) - 1) st) (Inv 0) := by
  induction n with
  | zero => intro st h _; exact wp_some h
  | succ n ih =>
    intro st h hb
    have hn := hb n st (by omega) h
    rw [show ((n : Nat) : Int) = ((n + 1 : Nat) : Int) - 1 from by omega] at hn
    refine wp_bind hn fun st' h' => ?_
    have := ih st' h' (fun j st hj => hb j st (by omega))
    rw [show (n : Int) - 1 = ((n + 1 : Nat) : Int) - 1 + -1 from by omega] at this
    exact this

theorem wp_forDown {σ : Type} (body : Int → σ → Option σ) (Inv : Nat → σ → Prop) (a : Nat) (st : σ) (h : Inv (a + 1) st)
    (hb : ∀ j st, j < a + 1 → Inv (j + 1) st → Wp (body (j : Int) st) (Inv j)) : Wp (Loops.forDown (a : Int) body st) (Inv 0) := by
  unfold Loops.forDown
  have := wp_down body Inv (a + 1) st h hb
  rw [show ((a : Int) + 1).toNat = a + 1 from by omega]
  rwa [show ((a + 1 : Nat) : Int) - 1 = (a : Int) from by omega] at this

/-! ## The functions -/

theorem geIsNeutral_wp (x : Obj) (m : PMem F) (X : ExtPt F) (a : m ⟨x, 0⟩ = some X.X) (b : m ⟨x, 1⟩ = some X.Y) (c : m ⟨x, 2⟩ = some X.Z) (hx : Hi 205 x) :
    Wp (geIsNeutral x m) (fun a => a.1 = Cref.geIsNeutral X ∧ Out 205 m a.2) := by
  unfold geIsNeutral
  have h0 : Out 205 m (m.decl 204 205) := (Out.refl _ _).decl _ _ le_rfl
  simp only [Option.bind_eq_bind]
  refine wp_bind (geDouble_wp' (.loc 204) x _ X ((h0 x hx 0).trans a) ((h0 x hx 1).trans b) ((h0 x hx 2).trans c) (hx.mono (by omega)) (hi_loc _ _ (by omega)) _ rfl) fun m1 h1 => ?_
  refine wp_bind (geDouble_wp (.loc 204) (.loc 204) _ _ (HasPt.self h1 (hi_loc _ _ (by omega))) (hi_loc _ _ (by omega)) (hi_loc _ _ (by omega)) _ rfl) fun m2 h2 => ?_
  refine wp_bind (geDouble_wp (.loc 204) (.loc 204) _ _ (HasPt.self h2 (hi_loc _ _ (by omega))) (hi_loc _ _ (by omega)) (hi_loc _ _ (by omega)) _ rfl) fun m3 h3 => ?_
  have e := HasPt.self h3 (hi_loc _ _ (by omega))
  refine wp_iszero e.x ?_
  have hd : ∀ o, m3.decl 0 1 ⟨.loc 204, o⟩ = m3 ⟨.loc 204, o⟩ := fun o => by rw [decl_loc, if_neg (by omega)]
  refine wp_iseq (X := (Cref.geDouble (Cref.geDouble (Cref.geDouble X))).Y) (Y := (Cref.geDouble (Cref.geDouble (Cref.geDouble X))).Z)
    ((hd 1).trans e.y) ((hd 2).trans e.z) fun v => wp_some ⟨rfl, ?_⟩
  have o1 : Out 205 m m1 := h0.trans ((Out.setLoc (by omega)).trans (h1.mono (by omega)))
  have o2 : Out 205 m m2 := o1.trans ((Out.setLoc (by omega)).trans (h2.mono (by omega)))
  have o3 : Out 205 m m3 := o2.trans ((Out.setLoc (by omega)).trans (h3.mono (by omega)))
  exact (o3.decl _ _ (by omega)).upd _ _ _ (by omega)

theorem copyPt_wp (r x : Obj) (m : PMem F) (X : ExtPt F) (hX : HasPt m x X) : copyPt r x m = some (setPt r X m) := by
  unfold copyPt
  rw [hX.x, hX.y, hX.z, hX.t]
  rfl

theorem chooseRound_wp (b : Int8) (j : Nat) (m : PMem F) (T P : ExtPt F) (hT : HasPt m (.loc 160) T) (hP : HasPt m (.loc (170 + j)) P) :
    chooseRound (.loc 160) 170 b (j : Int) m = some (setPt (.loc 160) (Cref.cmovPt T P
      (Cref.groupStaticEqual b (Int8.ofInt j) ||| Cref.groupStaticEqual (-b) (Int8.ofInt j))) m) := by
  have hj : (160 = 170 + j) = False := eq_false (by omega)
  have hj' : (170 + j = 160) = False := eq_false (by omega)
  obtain ⟨a, b, c, d⟩ := hT
  obtain ⟨a', b', c', d'⟩ := hP
  unfold chooseRound
  simp only [Int.toNat_natCast, cmov, ld_adr, upd_at, Addr.mk.injEq, Obj.loc.injEq, hj, hj', a, b, c, d, a', b', c', d', Nat.reduceEqDiff, and_false, false_and, if_false,
    OfNat.ofNat_ne_zero, zero_ne_one, one_ne_zero, OfNat.zero_ne_ofNat, OfNat.one_ne_ofNat, OfNat.ofNat_ne_one, Option.bind_eq_bind, Option.bind_some]
  rfl

theorem getD_lt {α : Type} (a : List α) (d : α) {i : Nat} (h : i < a.length) : a.getD i d = a[i] := by
  rw [List.getD_eq_getElem?_getD, List.getElem?_eq_getElem h]
  rfl

/-- The table in memory. -/
def Pre (P : List (ExtPt F)) (n : Nat) (m : PMem F) : Prop := ∀ j, j < n → HasPt m (.loc (170 + j)) (P.getD j Cref.neutral)

theorem Pre.out {P : List (ExtPt F)} {n hi : Nat} {m M : PMem F} (h : Pre P n m) (hM : Out hi m M) (hhi : hi ≤ 170) : Pre P n M := fun j hj =>
  (h j hj).out hM (hi_loc _ _ (by omega))

theorem Pre.set {P : List (ExtPt F)} {n hi : Nat} {r : Obj} {V : ExtPt F} {m M : PMem F} (h : Pre P n m) (hM : Out hi (setPt r V m) M) (hhi : hi ≤ 170)
    (hr : ∀ j, j < n → Obj.loc (170 + j) ≠ r) : Pre P n M := fun j hj => (h j hj).other hM (hi_loc _ _ (by omega)) (hr j hj)

theorem chooseT_wp (P : List (ExtPt F)) (hP : P.length = 17) (b : Int8) (m : PMem F) (hm : Pre P 17 m) :
    Wp (chooseT (.loc 160) 170 b m) (Out 152 (setPt (.loc 160) (Cref.chooseT P b) m)) := by
  match P, hP with
  | p :: P, hP =>
    have hl : P.length = 16 := by simpa using hP
    have h0 : Out 152 m (m.decl 151 152) := (Out.refl _ _).decl _ _ le_rfl
    have hm0 : Pre (p :: P) 17 (m.decl 151 152) := hm.out h0 (by omega)
    unfold chooseT
    simp only [Option.bind_eq_bind]
    rw [copyPt_wp _ _ _ _ (hm0 0 (by omega)), Option.bind_some]
    have hloop := wp_forLt (chooseRound (F := F) (.loc 160) 170 b)
      (fun j M => ∃ t, Cref.chooseLoop b (Int8.ofInt j) ((p :: P).drop j) t = Cref.chooseLoop b 1 P p ∧ Out 152 (setPt (.loc 160) t m) M) 1 17 (by omega)
      (setPt (.loc 160) ((p :: P).getD 0 Cref.neutral) (m.decl 151 152)) ⟨p, rfl, h0.set⟩ (by
        rintro j M h1 h2 ⟨t, ht, hM⟩
        have hp := (hm j (by omega)).other hM (hi_loc _ _ (by omega)) (by simp; omega)
        rw [chooseRound_wp b j M _ _ (HasPt.self hM (hi_loc _ _ (by omega))) hp]
        refine wp_some ⟨_, ?_, hM.reset⟩
        rw [← ht, List.drop_eq_getElem_cons (show j < (p :: P).length by simp; omega)]
        simp only [Cref.chooseLoop]
        rw [show ((j + 1 : Nat) : Int) = (j : Int) + 1 from by simp, Int8.ofInt_add]
        rw [getD_lt _ _ (show j < (p :: P).length by simp; omega)]
        rfl)
    refine wp_bind hloop ?_
    rintro M ⟨t, ht, hM⟩
    rw [List.drop_eq_nil_of_le (by simp [hl])] at ht
    have ht : t = Cref.chooseLoop b 1 P p := ht
    subst ht
    have hc : Cref.chooseT (p :: P) b = (
      let t := Cref.chooseLoop b 1 P p
      ⟨O.cmov t.X (O.neg t.X) (Cref.negative b), t.Y, t.Z, O.cmov t.T (O.neg t.T) (Cref.negative b)⟩) := rfl
    rw [hc]
    generalize Cref.chooseLoop b 1 P p = t at hM ⊢
    obtain ⟨a, b', c, d⟩ := HasPt.self hM (hi_loc _ _ (by omega))
    refine ⟨_, by
      simp only [neg, op1, cmov, ld_adr, upd_at, Addr.mk.injEq, Obj.loc.injEq, a, b', c, d, Nat.reduceEqDiff, and_false, false_and, and_true, true_and, if_false, if_true, eq_self,
        OfNat.ofNat_ne_zero, zero_ne_one, one_ne_zero, OfNat.zero_ne_ofNat, OfNat.one_ne_ofNat, OfNat.ofNat_ne_one, Option.bind_eq_bind, Option.bind_some]
      rfl, ?_⟩
    intro q hq o
    have hqq := hi_eq hq
    have h := hM q hq o
    simp only [setPt, upd_at, Addr.mk.injEq] at h
    simp only [setPt, upd_at, Addr.mk.injEq, hqq, Nat.reduceLT, false_and, if_false, h]
    split_ifs <;> simp_all

/-- The precomputation up to entry `n`; nothing else has been written but local variables. -/
def Tab (P : List (ExtPt F)) (m0 : PMem F) (n : Nat) (m : PMem F) : Prop := Pre P n m ∧ Out 187 m0 m

theorem double_tab (P : List (ExtPt F)) (m0 : PMem F) (n k : Nat) (hn : n < 17) (hk : k < n)
    (e : P.getD n Cref.neutral = Cref.geDouble (P.getD k Cref.neutral)) (m : PMem F) (h : Tab P m0 n m) :
    Wp (geDouble (.loc (170 + n)) (.loc (170 + k)) m) (Tab P m0 (n + 1)) := by
  refine wp_mono (geDouble_wp (.loc (170 + n)) (.loc (170 + k)) m _ (h.1 k hk) (hi_loc _ _ (by omega)) (hi_loc _ _ (by omega)) _ e) fun M hM => ⟨?_, ?_⟩
  · intro j hj
    by_cases hjn : j = n
    · subst hjn
      exact HasPt.self hM (hi_loc _ _ (by omega))
    · exact (h.1 j (by omega)).other hM (hi_loc _ _ (by omega)) (by simp; omega)
  · exact h.2.trans ((Out.setLoc (by omega)).trans (hM.mono (by omega)))

theorem add_tab (P : List (ExtPt F)) (m0 : PMem F) (n k l : Nat) (hn : n < 17) (hk : k < n) (hl : l < n)
    (e : P.getD n Cref.neutral = Cref.geAdd (P.getD k Cref.neutral) (P.getD l Cref.neutral)) (m : PMem F) (h : Tab P m0 n m) :
    Wp (geAdd (.loc (170 + n)) (.loc (170 + k)) (.loc (170 + l)) m) (Tab P m0 (n + 1)) := by
  refine wp_mono (geAdd_wp (.loc (170 + n)) (.loc (170 + k)) (.loc (170 + l)) m _ _ (h.1 k hk) (h.1 l hl) (hi_loc _ _ (by omega)) (hi_loc _ _ (by omega))
    (hi_loc _ _ (by omega)) _ e) fun M hM => ⟨?_, ?_⟩
  · intro j hj
    by_cases hjn : j = n
    · subst hjn
      exact HasPt.self hM (hi_loc _ _ (by omega))
    · exact (h.1 j (by omega)).other hM (hi_loc _ _ (by omega)) (by simp; omega)
  · exact h.2.trans ((Out.setLoc (by omega)).trans (hM.mono (by omega)))

theorem round_tab (P : List (ExtPt F)) (m0 : PMem F) (k : Nat) (hk : 1 ≤ k) (hk' : k < 8)
    (e1 : P.getD (2 * k) Cref.neutral = Cref.geDouble (P.getD k Cref.neutral))
    (e2 : P.getD (2 * k + 1) Cref.neutral = Cref.geAdd (P.getD (2 * k) Cref.neutral) (P.getD 1 Cref.neutral)) (i : Int) (hi : i = 2 * k)
    (m : PMem F) (h : Tab P m0 (2 * k) m) : Wp (precompRound i m) (Tab P m0 (2 * k + 2)) := by
  subst hi
  unfold precompRound
  rw [show (2 * (k : Int)).toNat = 2 * k from by omega, show (2 * (k : Int) / 2).toNat = k from by omega, show (2 * (k : Int) + 1).toNat = 2 * k + 1 from by omega]
  exact wp_bind (double_tab P m0 (2 * k) k (by omega) (by omega) e1 m h) fun M hM => add_tab P m0 (2 * k + 1) (2 * k) 1 (by omega) (by omega) (by omega) e2 M hM

theorem precomp_wp (m0 m : PMem F) (X : ExtPt F) (h : Tab (Cref.precomp X) m0 2 m) :
    Wp ((Loops.forLt 2 16 2 precompRound m).bind fun m => geDouble (.loc (170 + 16)) (.loc (170 + 8)) m) (Tab (Cref.precomp X) m0 17) := by
  have hf : Loops.forLt 2 16 2 (precompRound (F := F)) m = Loops.iter 2 precompRound 7 2 m := rfl
  rw [hf]
  have e : ∀ k, 1 ≤ k → k < 8 → (Cref.precomp X).getD (2 * k) Cref.neutral = Cref.geDouble ((Cref.precomp X).getD k Cref.neutral) ∧
      (Cref.precomp X).getD (2 * k + 1) Cref.neutral = Cref.geAdd ((Cref.precomp X).getD (2 * k) Cref.neutral) ((Cref.precomp X).getD 1 Cref.neutral) := by
    intro k h1 h2
    obtain rfl | rfl | rfl | rfl | rfl | rfl | rfl : k = 1 ∨ k = 2 ∨ k = 3 ∨ k = 4 ∨ k = 5 ∨ k = 6 ∨ k = 7 := by omega
    all_goals exact ⟨rfl, rfl⟩
  have e16 : (Cref.precomp X).getD 16 Cref.neutral = Cref.geDouble ((Cref.precomp X).getD 8 Cref.neutral) := rfl
  generalize Cref.precomp X = P at h e e16 ⊢
  have hr := fun (k : Nat) (h1 : 1 ≤ k) (h2 : k < 8) => round_tab P m0 k h1 h2 (e k h1 h2).1 (e k h1 h2).2
  have hit : ∀ n k : Nat, 1 ≤ k → k + n = 8 → ∀ m, Tab P m0 (2 * k) m → Wp (Loops.iter 2 precompRound n (2 * (k : Int)) m) (Tab P m0 16) := by
    intro n
    induction n with
    | zero =>
      intro k _ hk m h
      obtain rfl : k = 8 := by omega
      exact wp_some h
    | succ n ih =>
      intro k h1 hk m h
      refine wp_bind (hr k h1 (by omega) _ rfl m h) fun M hM => ?_
      have := ih (k + 1) (by omega) (by omega) M hM
      rwa [show 2 * ((k + 1 : Nat) : Int) = 2 * (k : Int) + 2 from by omega] at this
  exact wp_bind (hit 7 1 le_rfl (by omega) m h) fun M hM => double_tab P m0 16 8 (by omega) (by omega) e16 M hM

/-- The main loop: the receiver holds `V`, and the table is there. -/
def Main (P : List (ExtPt F)) (r : Obj) (m0 : PMem F) (V : ExtPt F) (m : PMem F) : Prop := Pre P 17 m ∧ Out 187 (setPt r V m0) m

theorem Main.r {P : List (ExtPt F)} {r : Obj} {m0 m : PMem F} {V : ExtPt F} (h : Main P r m0 V m) (hr : Hi 187 r) : HasPt m r V := HasPt.self h.2 hr

theorem Main.write {P : List (ExtPt F)} {r : Obj} {m0 m M : PMem F} {V W : ExtPt F} {hi : Nat} (h : Main P r m0 V m) (hr : Hi 187 r) (hM : Out hi (setPt r W m) M) (hhi : hi ≤ 160) :
    Main P r m0 W M :=
  ⟨h.1.set hM (by omega) fun j hj e => hr (170 + j) (by omega) e.symm, h.2.reset.trans (hM.mono (by omega))⟩

theorem Main.write160 {P : List (ExtPt F)} {r : Obj} {m0 m M : PMem F} {V W : ExtPt F} {hi : Nat} (h : Main P r m0 V m)
    (hM : Out hi (setPt (.loc 160) W m) M) (hhi : hi ≤ 160) : Main P r m0 V M :=
  ⟨h.1.set hM (by omega) fun j hj e => by simp at e; omega, h.2.trans ((Out.setLoc (by omega)).trans (hM.mono (by omega)))⟩

theorem multRound_wp (P : List (ExtPt F)) (hP : P.length = 17) (r : Obj) (hr : Hi 187 r) (m0 : PMem F) (w : Int8) (V : ExtPt F) (m : PMem F) (h : Main P r m0 V m) :
    Wp (multRound r w m) (Main P r m0 (Cref.multStep P V w)) := by
  have dbl : ∀ V m, Main P r m0 V m → Wp (geDouble r r m) (Main P r m0 (Cref.geDouble V)) := fun V m h =>
    wp_mono (geDouble_wp r r m V (h.r hr) (hr.mono (by omega)) (hr.mono (by omega)) _ rfl) fun M hM => h.write hr hM (by omega)
  unfold multRound
  have h5 : Wp (Loops.forLt 0 5 1 (fun _ m => geDouble r r m) m)
      (Main P r m0 (Cref.geDouble (Cref.geDouble (Cref.geDouble (Cref.geDouble (Cref.geDouble V)))))) := by
    have hf : Loops.forLt 0 5 1 (fun _ m => geDouble (F := F) r r m) m = Loops.iter 1 (fun _ m => geDouble r r m) 5 0 m := rfl
    rw [hf]
    exact wp_bind (dbl _ _ h) fun _ h => wp_bind (dbl _ _ h) fun _ h => wp_bind (dbl _ _ h) fun _ h => wp_bind (dbl _ _ h) fun _ h =>
      wp_bind (dbl _ _ h) fun _ h => wp_some h
  refine wp_bind h5 fun m1 h1 => ?_
  refine wp_bind (chooseT_wp P hP w m1 h1.1) fun m2 h2 => ?_
  have h3 := h1.write160 h2 (by omega)
  have ht : HasPt m2 (.loc 160) _ := HasPt.self h2 (hi_loc _ _ (by omega))
  exact wp_mono (geAdd_wp r r (.loc 160) m2 _ _ (h3.r hr) ht (hr.mono (by omega)) (hi_loc _ _ (by omega)) (hr.mono (by omega)) _ rfl) fun M hM => h3.write hr hM (by omega)

theorem geScalarMult_wp (r x : Obj) (s : Sc) (m : PMem F) (X : ExtPt F) (hX : HasPt m x X) (hx : Hi 187 x) (hr : Hi 187 r) :
    Wp (geScalarMult r x s m) (Out 187 (setPt r (Cref.geScalarMult X s) m)) := by
  unfold geScalarMult Cref.geScalarMult
  have hw := (CrefLoops.window5_eq s).2
  generalize Cref.window5 s = W at hw ⊢
  have h0 : Out 187 m (m.decl 160 187) := (Out.refl _ _).decl _ _ le_rfl
  have h1 : Out 187 m (setPt (.loc 170) Cref.neutral (m.decl 160 187)) := h0.trans (Out.setLoc (by omega))
  simp only [Option.bind_eq_bind]
  rw [copyPt_wp _ _ _ _ (hX.out h1 hx), Option.bind_some]
  have hlen : (Cref.precomp X).length = 17 := rfl
  have h2 : Tab (Cref.precomp X) m 2 (setPt (.loc (170 + 1)) X (setPt (.loc 170) Cref.neutral (m.decl 160 187))) := by
    refine ⟨?_, h1.trans (Out.setLoc (by omega))⟩
    intro j hj
    obtain rfl | rfl : j = 0 ∨ j = 1 := by omega
    · exact (HasPt.set (.loc 170) Cref.neutral _).other (Out.refl 0 _) (hi_loc _ _ (by omega)) (by simp)
    · exact HasPt.set _ X _
  have h3 := precomp_wp m _ X h2
  generalize Cref.precomp X = P at h3 hlen ⊢
  rw [← Option.bind_assoc]
  refine wp_bind h3 fun m1 h4 => ?_
  have h5 : Main P r m Cref.neutral (setPt r Cref.neutral m1) :=
    ⟨h4.1.set (Out.refl 0 _) (by omega) fun j hj e => hr (170 + j) (by omega) e.symm, h4.2.set⟩
  refine wp_mono (wp_forDown _ (fun j M => Main P r m ((W.drop j).reverse.foldl (Cref.multStep P) Cref.neutral) M) 50 _ ?_ ?_) fun M hM => hM.2
  · rw [List.drop_eq_nil_of_le (by omega)]
    exact h5
  · intro j M hj h
    rw [CrefLoops.get_lt W j (by omega) 0, Option.bind_some]
    have := multRound_wp P hlen r hr m (W.getD j 0) _ M h
    rw [List.drop_eq_getElem_cons (by omega), List.reverse_cons, List.foldl_append]
    rw [getD_lt _ _ (show j < W.length by omega)] at this ⊢
    exact this

theorem multiStep_wp (scs : Nat → Sc) (r : Obj) (m0 : PMem F) (hr : Hi 193 r) (V : ExtPt F) (xs : Nat × Nat) (X : ExtPt F) (m : PMem F) (h : Out 193 (setPt r V m0) m)
    (hX : HasPt (setPt r V m0) (.pt xs.1) X) :
    Wp (multiStep scs r m xs) (Out 193 (setPt r (Cref.geAdd V (Cref.geScalarMult X (scs xs.2))) m0)) := by
  unfold multiStep
  refine wp_bind (geScalarMult_wp (.loc 192) (.pt xs.1) (scs xs.2) m X (hX.out h (hi_pt _ _)) (hi_pt _ _) (hi_loc _ _ (by omega))) fun m1 h1 => ?_
  have h2 : Out 193 (setPt r V m0) m1 := h.trans ((Out.setLoc (by omega)).trans (h1.mono (by omega)))
  refine wp_mono (geAdd_wp r r (.loc 192) m1 _ _ (HasPt.self h2 hr) (HasPt.self h1 (hi_loc _ _ (by omega))) (hr.mono (by omega)) (hi_loc _ _ (by omega)) (hr.mono (by omega)) _ rfl)
    fun M hM => h2.reset.trans (hM.mono (by omega))

end

end Ristretto.Proofs.CrefPtr
