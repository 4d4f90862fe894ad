import Verif.Proofs.ConcMain
import Verif.Proofs.ConcWords

/-!
# Two goroutines that call `Lizard` on the same point in the generic build

`BytesInto` of the generic build first computes a quotient `q` from the limbs of its receiver, then
adds `19 * q` to the first limb of the receiver and carries.  Goroutine `true` is stopped between the
two, goroutine `false` runs to its end, and then goroutine `true` adds `19 * q` once more.
-/

namespace Ristretto.Proofs.Conc
open Model Model.Conc Spec.Conc FieldOps
set_option autoImplicit false

section
variable {L : Type} {V : L → Type} {α β ι : Type} [DecidableEq L]

/-- Some steps of a program alone. -/
inductive Reach : Prog V α → Memory V → Prog V α → Memory V → Prop
  | refl (P : Prog V α) (m : Memory V) : Reach P m P m
  | ld {l : L} {k : V l → Prog V α} {m m' : Memory V} {B : Prog V α} (h : Reach (k (m l)) m B m') :
      Reach (.ld l k) m B m'
  | st {l : L} {v : V l} {k : Prog V α} {m m' : Memory V} {B : Prog V α}
      (h : Reach k (Function.update m l v) B m') : Reach (.st l v k) m B m'

theorem Reach.trans {P Q R : Prog V α} {m m' m'' : Memory V} (h : Reach P m Q m') (h' : Reach Q m' R m'') :
    Reach P m R m'' := by
  induction h with
  | refl => exact h'
  | ld _ ih => exact .ld (ih h')
  | st _ ih => exact .st (ih h')

theorem Reach.bind {P B : Prog V α} {m m' : Memory V} (h : Reach P m B m') (K : α → Prog V β) :
    Reach (P >>= K) m (B >>= K) m' := by
  induction h with
  | refl P m => exact .refl _ _
  | ld _ ih => exact .ld ih
  | st _ ih => exact .st ih

theorem Reach.of_run (P : Prog V α) : ∀ {m m' : Memory V} {a : α}, P.run m = some (a, m') → Reach P m (.ret a) m' := by
  induction P with
  | ret a => intro m m' b h; injection h with h; injection h with h1 h2; subst h1 h2; exact .refl _ _
  | fail => intro m m' b h; exact absurd h (by simp [Prog.run])
  | ld l k ih => intro m m' b h; exact .ld (ih _ h)
  | st l v k ih => intro m m' b h; exact .st (ih h)

theorem Reach.solo {P B : Prog V α} {m m' : Memory V} (h : Reach P m B m') : ∃ n, solo P m n = (B, m') := by
  induction h with
  | refl P m => exact ⟨0, rfl⟩
  | ld _ ih => obtain ⟨n, h⟩ := ih; exact ⟨n + 1, (solo_succ' _ _ _).trans h⟩
  | st _ ih => obtain ⟨n, h⟩ := ih; exact ⟨n + 1, (solo_succ' _ _ _).trans h⟩

variable [DecidableEq ι]

/-- Goroutine `i` runs alone for a while. -/
theorem Reach.sched {c : Conf ι V α} {i : ι} {B : Prog V α} {m' : Memory V} (h : Reach (c.threads i) c.mem B m') :
    ∃ σ : List ι, c.sched σ = ⟨Function.update c.threads i B, m'⟩ := by
  obtain ⟨n, h⟩ := h.solo
  exact ⟨List.replicate n i, by rw [sched_replicate, h]⟩
end

section
variable {F : Type} [FieldOps F] [Words F] {α β : Type}

/-- Some steps of a program alone that leave the contents of the variables as they are. -/
def ReachV (v : Mem F) (P B : M F α) : Prop := ∀ m, view m = v → ∃ m', view m' = v ∧ Reach P m B m'

theorem ReachV.trans {v : Mem F} {P Q R : M F α} (h : ReachV v P Q) (h' : ReachV v Q R) : ReachV v P R := by
  intro m hm
  obtain ⟨m1, h1, h2⟩ := h m hm
  obtain ⟨m2, h3, h4⟩ := h' m1 h1
  exact ⟨m2, h3, h2.trans h4⟩

theorem ReachV.bind {v : Mem F} {P B : M F α} (h : ReachV v P B) (K : α → M F β) :
    ReachV v (P >>= K) (B >>= K) := by
  intro m hm
  obtain ⟨m1, h1, h2⟩ := h m hm
  exact ⟨m1, h1, h2.bind K⟩

theorem ReachV.refl (v : Mem F) (P : M F α) : ReachV v P P := fun m hm => ⟨m, hm, .refl _ _⟩

/-- A completed part of a program. -/
theorem ReachV.next {v : Mem F} {P : M F α} {K : α → M F β} {a : α} {B : M F β}
    (h : SpecAt v P (some (v, a))) (h' : ReachV v (K a) B) : ReachV v (P >>= K) B := by
  refine ReachV.trans ?_ h'
  intro m hm
  have := h m hm
  cases e : P.run m with
  | none => rw [e] at this; cases this
  | some r =>
    rw [e, Option.map_some] at this
    injection this with this
    injection this with h1 h2
    refine ⟨r.2, h1, ?_⟩
    have h3 := (Reach.of_run P (m := m) (m' := r.2) (a := r.1) (by rw [e])).bind K
    rw [h2] at h3
    exact h3

/-- A program on the limbs of a coordinate. -/
theorem spec_atFe [LawfulWords F] (v : Mem F) (p fld : Nat) (hf : fld < 4) (P : Prog (fun _ : Nat => Words.W F) α)
    (y : F) (a : α)
    (h : ∀ m, (Words.ofWords ((List.range (Words.num F)).map m) : F) = fldOf (v.pts p) fld →
      ∃ m', P.run m = some (a, m') ∧ (Words.ofWords ((List.range (Words.num F)).map m') : F) = y) :
    SpecAt v (atFe p fld P) (some (v.setPt p (setF (v.pts p) fld y), a)) := by
  intro m hm
  have hfe : feAt m p fld = fldOf (v.pts p) fld := by rw [← hm]; exact (fldOf_view m p fld hf).symm
  obtain ⟨w', h1, h2⟩ := h (fun k => m (.pt p fld k)) hfe
  have := run_atFe p fld P m (fun k => m (.pt p fld k)) (fun _ => rfl)
  rw [h1] at this
  obtain ⟨m', e1, e2, e3⟩ := this
  rw [e1, Option.map_some, ← hm]
  have hx : feAt m' p fld = y := by
    unfold feAt
    rw [← h2]
    congr 1
    exact List.map_congr_left fun k _ => e2 k
  rw [view_pt m m' p fld hf _ hx e3]

end

/-- The part of `bytesP25` after the computation of `q`. -/
def bytesRest25 (q : Int32) : Limb (Bytes 32) := do
  wr 0 ((← rd 0) + 19 * q)
  carryStep 0 26
  carryStep 1 25
  carryStep 2 26
  carryStep 3 25
  carryStep 4 26
  carryStep 5 25
  carryStep 6 26
  carryStep 7 25
  carryStep 8 26
  let c := (← rd 9) >>> 25
  wr 9 ((← rd 9) - (c <<< 25))
  return Fe25.pack (ofWords25 (← loads [0, 1, 2, 3, 4, 5, 6, 7, 8, 9]))

/-- The quotient `bytesP25` computes. -/
def quot25 (x : Fe25) : Int32 :=
  let q := (19 * x.l9 + 16777216) >>> 25
  let q := (x.l0 + q) >>> 26
  let q := (x.l1 + q) >>> 25
  let q := (x.l2 + q) >>> 26
  let q := (x.l3 + q) >>> 25
  let q := (x.l4 + q) >>> 26
  let q := (x.l5 + q) >>> 25
  let q := (x.l6 + q) >>> 26
  let q := (x.l7 + q) >>> 25
  let q := (x.l8 + q) >>> 26
  (x.l9 + q) >>> 25

/-- What `bytesRest25` leaves in the receiver. -/
def rest25 (q : Int32) (x : Fe25) : Fe25 :=
  let y := setLimb x 0 (x.l0 + 19 * q)
  let y := carried (carried (carried (carried (carried (carried (carried (carried (carried y
    0 26) 1 25) 2 26) 3 25) 4 26) 5 25) 6 26) 7 25) 8 26
  setLimb y 9 (limb y 9 - ((limb y 9 >>> 25) <<< 25))

theorem limb_rest (q : Int32) (x : Fe25) : LimbAt x (bytesRest25 q) (rest25 q x) (Fe25.pack (rest25 q x)) := by
  unfold bytesRest25
  refine (limb_rd x 0 (by decide)).bind <| (limb_wr x 0 (by decide) _).bind <|
    (limb_carry _ 0 (by decide) _).bind <| (limb_carry _ 1 (by decide) _).bind <|
    (limb_carry _ 2 (by decide) _).bind <| (limb_carry _ 3 (by decide) _).bind <|
    (limb_carry _ 4 (by decide) _).bind <| (limb_carry _ 5 (by decide) _).bind <|
    (limb_carry _ 6 (by decide) _).bind <| (limb_carry _ 7 (by decide) _).bind <|
    (limb_carry _ 8 (by decide) _).bind <| (limb_rd _ 9 (by decide)).bind <|
    (limb_rd _ 9 (by decide)).bind <| (limb_wr _ 9 (by decide) _).bind <| (limb_loads _).bind ?_
  have hw : ∀ y : Fe25, ofWords25 (words25 y) = y := fun _ => rfl
  rw [hw]
  have hY : ∀ y z : Fe25, y = z → LimbAt y (pure (Fe25.pack y)) z (Fe25.pack z) := by
    rintro y _ rfl m hm
    exact ⟨m, rfl, hm⟩
  refine hY _ _ ?_
  have hl : limb x 0 = x.l0 := rfl
  simp only [rest25, hl]

theorem reach_quot (v : Mem Fe25) (p fld : Nat) (hf : fld < 4) :
    ReachV v (atFe p fld (bytesP25 : Limb (Bytes 32)) : M Fe25 (Bytes 32))
      (atFe p fld (bytesRest25 (quot25 (fldOf (v.pts p) fld)))) := by
  intro m hm
  refine ⟨m, hm, ?_⟩
  subst hm
  rw [fldOf_view m p fld hf]
  exact .ld <| .ld <| .ld <| .ld <| .ld <| .ld <| .ld <| .ld <| .ld <| .ld <| .ld <| .refl _ _

theorem limbAt_words {α : Type} {x y : Fe25} {P : Limb α} {a : α} (h : LimbAt x P y a)
    (m : Memory fun _ : Nat => Int32)
    (hm : (Words.ofWords ((List.range (Words.num Fe25)).map m) : Fe25) = x) :
    ∃ m', P.run m = some (a, m') ∧ (Words.ofWords ((List.range (Words.num Fe25)).map m') : Fe25) = y :=
  h m hm

/-- The program reaches, with the contents of the variables unchanged, the point where `19 * q` is
added to the first limb of X; after that it only evaluates `IsNonZero` of Y. -/
def AtRest {α : Type} (v : Mem Fe25) (p : Nat) (P : M Fe25 α) : Prop :=
  ∃ K : Bytes 32 → Int32 → α,
    ReachV v P (atFe p 0 (bytesRest25 (quot25 (v.pts p).X)) >>= fun b =>
        (isNonZeroP p 1 : M Fe25 Int32) >>= fun y => pure (K b y))

theorem AtRest.next {α β : Type} {v : Mem Fe25} {p : Nat} {P : M Fe25 α} {K : α → M Fe25 β} {a : α}
    (h : SpecAt v P (some (v, a))) (h' : AtRest v p (K a)) : AtRest v p (P >>= K) := by
  obtain ⟨G, hG⟩ := h'
  exact ⟨G, .next h hG⟩

theorem bind_assoc' {L : Type} {V : L → Type} {α β γ : Type} (P : Prog V α) (f : α → Prog V β)
    (g : β → Prog V γ) : (P >>= f) >>= g = P >>= fun a => f a >>= g := by
  induction P with
  | ret a => rfl
  | fail => rfl
  | ld l k ih => exact congrArg (Prog.ld l) (funext fun v => ih v)
  | st l v k ih => exact congrArg (Prog.st l v) ih

theorem pure_bind' {L : Type} {V : L → Type} {α β : Type} (a : α) (f : α → Prog V β) :
    ((pure a : Prog V α) >>= f) = f a := rfl

theorem AtRest.base {α : Type} (v : Mem Fe25) (p : Nat) (G : Int32 → Int32 → α) :
    AtRest v p (isNonZeroP p 0 >>= fun x => isNonZeroP p 1 >>= fun y => pure (G x y)) := by
  refine ⟨fun b y => G (nonZeroOfBytes b) y, ?_⟩
  have h : (isNonZeroP p 0 : M Fe25 Int32) =
      atFe p 0 (bytesP25 : Limb (Bytes 32)) >>= fun b => pure (nonZeroOfBytes b) := rfl
  rw [h, bind_assoc']
  exact (reach_quot v p 0 (by decide)).bind _

theorem AtRest.bind {α β : Type} {v : Mem Fe25} {p : Nat} {P : M Fe25 α} (h : AtRest v p P) (f : α → β) :
    AtRest v p (P >>= fun a => pure (f a)) := by
  obtain ⟨G, hG⟩ := h
  refine ⟨fun b y => f (G b y), ?_⟩
  have := hG.bind fun a => pure (f a)
  simp only [bind_assoc', pure_bind'] at this
  exact this

/-- `ToJacobiQuarticRistretto` just before `19 * q` is added to the first limb of X. -/
theorem atRest_toJacobi (v : Mem Fe25) (p : Nat) : AtRest v p (toJacobiP p) := by
  unfold toJacobiP
  exact .next (spec_ldFe _ p 0 (by decide)) <| .next (spec_ldFe _ p 1 (by decide)) <|
    .next (spec_ldFe _ p 2 (by decide)) <| .next (spec_ldFe _ p 2 (by decide)) <|
    .next (spec_ldFe _ p 1 (by decide)) <| .next (spec_ldFe _ p 2 (by decide)) <|
    .next (spec_ldFe _ p 1 (by decide)) <| .next (spec_ldFe _ p 0 (by decide)) <|
    .next (spec_ldFe _ p 0 (by decide)) <| .next (spec_ldFe _ p 2 (by decide)) <|
    .next (spec_ldFe _ p 2 (by decide)) <| .next (spec_ldFe _ p 0 (by decide)) <|
    .next (spec_ldFe _ p 0 (by decide)) <| .next (spec_ldFe _ p 1 (by decide)) <|
    .next (spec_ldFe _ p 1 (by decide)) <| .base v p _

/-- A goroutine that calls `Lizard`. -/
theorem atRest_go (e : Env Fe25) (v : Mem Fe25) (p : Nat) : AtRest v p (goP e [.pLizard p]) := by
  have h := ((atRest_toJacobi v p).bind fun j =>
    let r := lizardOf e.sha256 j (Vector.replicate 16 0)
    Out.lizard (if r.2 = .nil then some r.1 else none)).bind fun o => [o]
  exact h

/-- The rest of the program. -/
theorem spec_rest {α : Type} (v : Mem Fe25) (p : Nat) (q : Int32) (K : Bytes 32 → Int32 → α) :
    ∃ a, SpecAt v (atFe p 0 (bytesRest25 q) >>= fun b =>
        (isNonZeroP p 1 : M Fe25 Int32) >>= fun y => pure (K b y))
      (some (v.setPt p ⟨rest25 q (v.pts p).X, Fe25.reduce (v.pts p).Y, (v.pts p).Z, (v.pts p).T⟩, a)) := by
  refine ⟨K (rest25 q (v.pts p).X).pack (isNonZeroI (v.pts p).Y), .congr ((spec_atFe v p 0 (by decide) (bytesRest25 q) _ _
    (limbAt_words (limb_rest q (v.pts p).X))).bind <|
    (spec_isNonZero _ p 1 (by decide)).bind <| .pure _ _) ?_⟩
  simp only [setPt_setPt, pts_setPt, setF, fldOf]
  rfl

/-- Two goroutines `Lizard` on one point: a state where both are about to store the first limb of X. -/
theorem lizard_race (e : Env Fe25) (p : Nat) (m : Memory (Val Fe25)) :
    ∃ σ : List Bool, Race ((start e (fun _ => [.pLizard p]) m).sched σ) := by
  have key : ∀ m : Memory (Val Fe25), ∃ m' B, view m' = view m ∧ Stores (.pt p 0 0) B ∧
      Reach (goP e [.pLizard p]) m B m' := by
    intro m
    obtain ⟨K, h⟩ := atRest_go e (view m) p
    obtain ⟨m', h1, h2⟩ := h m rfl
    exact ⟨m', _, h1, .st _ _, h2.trans (.ld (.refl _ _))⟩
  obtain ⟨m1, B1, -, s1, r1⟩ := key m
  obtain ⟨m2, B2, -, s2, r2⟩ := key m1
  obtain ⟨σ1, e1⟩ := Reach.sched (c := start e (fun _ : Bool => [.pLizard p]) m) (i := true) r1
  obtain ⟨σ2, e2⟩ := Reach.sched (c := (start e (fun _ : Bool => [.pLizard p]) m).sched σ1) (i := false)
    (B := B2) (m' := m2) (by rw [e1]; exact r2)
  refine ⟨σ1 ++ σ2, true, false, .pt p 0 0, by decide, ?_, ?_⟩
  · rw [sched_append, e2, e1]
    exact s1
  · rw [sched_append, e2, e1]
    have : Accesses (.pt p 0 0) B2 := by cases s2 with | st v k => exact .st v k
    exact this

/-- Two goroutines `Lizard` on one point: a schedule that ends with another X. -/
theorem lizard_corrupts (e : Env Fe25) (p : Nat) (m : Memory (Val Fe25)) :
    ∃ σ : List Bool, Finished ((start e (fun _ => [.pLizard p]) m).sched σ) ∧
      (view ((start e (fun _ : Bool => [.pLizard p]) m).sched σ).mem).pts p =
        ⟨rest25 (quot25 ((view m).pts p).X) (Fe25.reduce ((view m).pts p).X),
          Fe25.reduce (Fe25.reduce ((view m).pts p).Y), ((view m).pts p).Z, ((view m).pts p).T⟩ := by
  obtain ⟨K, h⟩ := atRest_go e (view m) p
  obtain ⟨m1, h1, r1⟩ := h m rfl
  obtain ⟨σ1, e1⟩ := Reach.sched (c := start e (fun _ : Bool => [.pLizard p]) m) (i := true) r1
  -- the other one, from start to end
  have h2 := spec_go e [.pLizard p] (view m) m1 h1
  cases e2 : (goP e [.pLizard p]).run m1 with
  | none => rw [e2] at h2; exact absurd h2 (by simp [Model.run, exec])
  | some r =>
  rw [e2, Option.map_some] at h2
  have hv : view r.2 = (view m).setPt p (toJacobiQuarticRistrettoRecv ((view m).pts p)) := by
    simp only [Model.run, exec, Option.bind_eq_bind, Option.bind_some, Option.some.injEq, Prod.mk.injEq] at h2
    exact h2.1
  obtain ⟨σ2, e2'⟩ := Reach.sched (c := (start e (fun _ : Bool => [.pLizard p]) m).sched σ1) (i := false)
    (B := .ret r.1) (m' := r.2) (by rw [e1]; exact Reach.of_run _ e2)
  -- the rest of the first one
  obtain ⟨a, h3⟩ := spec_rest (view r.2) p (quot25 ((view m).pts p).X) K
  have h3 := h3 r.2 rfl
  cases e3 : (atFe p 0 (bytesRest25 (quot25 ((view m).pts p).X)) >>= fun b =>
        (isNonZeroP p 1 : M Fe25 Int32) >>= fun y => (pure (K b y) : M Fe25 _)).run r.2 with
  | none => rw [e3] at h3; cases h3
  | some s =>
  rw [e3, Option.map_some] at h3
  injection h3 with h3
  injection h3 with h3 _
  obtain ⟨σ3, e3'⟩ := Reach.sched (c := (start e (fun _ : Bool => [.pLizard p]) m).sched (σ1 ++ σ2)) (i := true)
    (B := .ret s.1) (m' := s.2) (by rw [sched_append, e2', e1]; exact Reach.of_run _ e3)
  refine ⟨σ1 ++ σ2 ++ σ3, ?_, ?_⟩
  · rw [sched_append, e3', sched_append, e2', e1]
    intro i
    cases i
    · exact ⟨r.1, rfl⟩
    · exact ⟨s.1, rfl⟩
  · rw [sched_append, e3']
    show (view s.2).pts p = _
    rw [h3, hv, pts_setPt, pts_setPt]
    rfl

end Ristretto.Proofs.Conc
