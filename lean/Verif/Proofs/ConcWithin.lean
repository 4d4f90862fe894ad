import Verif.Proofs.ConcCall
import Verif.Proofs.ConcWords
import Verif.Spec.Conc

/-!
# Which locations the programs of the methods access
-/

namespace Ristretto.Proofs.Conc
open Model Model.Conc FieldOps Spec.Conc
set_option autoImplicit false
set_option linter.unusedSectionVars false
set_option linter.unusedTactic false
set_option linter.unreachableTactic false

/-- The variable a location belongs to. -/
def locVar : Loc → Var
  | .pt p _ _ => .pt p
  | .sc s _ => .sc s
  | .tab t _ _ _ _ => .tab t

/-- `BytesInto` only loads the limbs of its receiver, or works in place. -/
class BytesWithin (F : Type) [FieldOps F] [Words F] (inPlace : Bool) : Prop where
  within : Within (fun _ => True) (fun _ => inPlace = true) (Words.bytesP (F := F))

section
variable {L : Type} {V : L → Type} {α : Type}

theorem Within.ofOption (R W : L → Prop) (o : Option α) : Within (V := V) R W (Model.Conc.ofOption o) := by
  cases o
  · exact .fail
  · exact .ret _
end

theorem within_loads {W : Type} (X : Nat → Prop) : ∀ is : List Nat,
    Within (fun _ => True) X (loads (W := W) is)
  | [] => .ret _
  | i :: is => .ld i _ (.inl trivial) fun _ => (within_loads X is).bind fun _ => .ret _

instance : BytesWithin Fe51 false where
  within := (within_loads _ _).bind fun _ => .ret _

instance : BytesWithin Asm.FeAsm false where
  within := (within_loads _ _).bind fun _ => .ret _

theorem within_rd (i : Nat) : Within (fun _ => True) (fun _ => True) (rd i) := .ld _ _ (.inl trivial) fun _ => .ret _
theorem within_wr (i : Nat) (v : Int32) : Within (fun _ => True) (fun _ => True) (wr i v) := .st _ _ _ trivial (.ret _)

instance : BytesWithin Fe25 true where
  within := by
    have hall : ∀ {α : Type} (P : Limb α), Within (fun _ => True) (fun _ => true = true) P := by
      intro α P
      induction P with
      | ret a => exact .ret a
      | fail => exact .fail
      | ld l k ih => exact Within.ld (V := fun _ => Int32) l k (Or.inl trivial) ih
      | st l v k ih => exact Within.st (W := fun _ => true = true) l v k rfl ih
    exact hall _

variable {F : Type} [FieldOps F] [Words F] {inPlace : Bool} {α β : Type}

/-- The program accesses only the variables `U`, and stores only to the variables `S`. -/
abbrev In (U S : Var → Prop) (P : M F α) : Prop := Within (fun l => U (locVar l)) (fun l => S (locVar l)) P

theorem In.bind {U S : Var → Prop} {P : M F α} {K : α → M F β} (hP : In U S P) (hK : ∀ a, In U S (K a)) :
    In U S (P >>= K) := Within.bind hP hK

theorem In.pure {U S : Var → Prop} (a : α) : In U S (pure a : M F α) := .ret a

variable {U S : Var → Prop}

theorem in_ldWs {f : Nat → M F (Words.W F)} (h : ∀ i, In U S (f i)) : ∀ n i, In U S (ldWs f i n)
  | 0, _ => .ret _
  | n + 1, i => (h i).bind fun _ => (in_ldWs h n (i + 1)).bind fun _ => .pure _

theorem in_stWs {f : Nat → Words.W F → M F Unit} (h : ∀ i w, In U S (f i w)) : ∀ ws i, In U S (stWs f i ws)
  | [], _ => .ret _
  | w :: ws, i => (h i w).bind fun _ => in_stWs h ws (i + 1)

theorem in_ldFe {p fld : Nat} (h : U (.pt p)) : In U S (ldFe p fld : M F F) :=
  (in_ldWs (fun _ => .ld _ _ (.inl h) fun _ => .ret _) _ _).bind fun _ => .pure _
theorem in_stFe {p fld : Nat} {x : F} (h : S (.pt p)) : In U S (stFe p fld x) :=
  in_stWs (fun _ _ => .st _ _ _ h (.ret _)) _ _
theorem in_ldTab {t r j fld : Nat} (h : U (.tab t)) : In U S (ldTab t r j fld : M F F) :=
  (in_ldWs (fun _ => .ld _ _ (.inl h) fun _ => .ret _) _ _).bind fun _ => .pure _
theorem in_stTab {t r j fld : Nat} {x : F} (h : S (.tab t)) : In U S (stTab t r j fld x) :=
  in_stWs (fun _ _ => .st _ _ _ h (.ret _)) _ _
theorem in_ldS {s i : Nat} (h : U (.sc s)) : In U S (ldS s i : M F UInt32) := .ld _ _ (.inl h) fun _ => .ret _
theorem in_stS {s i : Nat} {v : UInt32} (h : S (.sc s)) : In U S (stS s i v : M F Unit) := .st _ _ _ h (.ret _)

theorem in_atFe {p fld : Nat} {R W : Nat → Prop} {P : Prog (fun _ : Nat => Words.W F) α} (hP : Within R W P)
    (hR : U (.pt p)) (hW : ∀ i, W i → S (.pt p)) : In U S (atFe p fld P : M F α) := by
  induction hP with
  | ret a => exact .ret a
  | fail => exact .fail
  | ld l k h _ ih => exact .ld _ _ (.inl hR) ih
  | st l v k h _ ih => exact .st _ _ _ (hW l h) ih

theorem in_isNeg [BytesWithin F inPlace] {p fld : Nat} (hR : U (.pt p)) (hW : inPlace = true → S (.pt p)) :
    In U S (isNegP p fld : M F Int32) :=
  (in_atFe BytesWithin.within hR fun _ => hW).bind fun _ => .pure _
theorem in_isNonZero [BytesWithin F inPlace] {p fld : Nat} (hR : U (.pt p)) (hW : inPlace = true → S (.pt p)) :
    In U S (isNonZeroP p fld : M F Int32) :=
  (in_atFe BytesWithin.within hR fun _ => hW).bind fun _ => .pure _

theorem in_ldSc {s : Nat} (h : U (.sc s)) : In U S (ldSc s : M F Scalar) := by
  unfold ldSc
  exact (in_ldS h).bind fun _ => (in_ldS h).bind fun _ => (in_ldS h).bind fun _ => (in_ldS h).bind fun _ =>
    (in_ldS h).bind fun _ => (in_ldS h).bind fun _ => (in_ldS h).bind fun _ => (in_ldS h).bind fun _ => .pure _
theorem in_stSc {s : Nat} {x : Scalar} (h : S (.sc s)) : In U S (stSc s x : M F Unit) := by
  unfold stSc
  exact (in_stS h).bind fun _ => (in_stS h).bind fun _ => (in_stS h).bind fun _ => (in_stS h).bind fun _ =>
    (in_stS h).bind fun _ => (in_stS h).bind fun _ => (in_stS h).bind fun _ => in_stS h
theorem in_sCondWord {s t : Nat} {m : UInt32} {i : Nat} (hs : S (.sc s)) (us : U (.sc s)) (ut : U (.sc t)) :
    In U S (sCondWordP s t m i : M F Unit) :=
  (in_ldS us).bind fun _ => (in_ldS ut).bind fun _ => in_stS hs

/-- A reader that accesses only `U`. -/
abbrev RdIn (U S : Var → Prop) (q : Rd F) : Prop := ∀ fld, In U S (q fld)

theorem in_var {q : Nat} (h : U (.pt q)) : RdIn U S (var q : Rd F) := fun _ => in_ldFe h
theorem in_loc (x : ExtPt F) : RdIn U S (loc x : Rd F) := fun _ => .ret _

section
attribute [local irreducible] ldFe stFe isNegP isNonZeroP ldSc stSc ldS stS sCondWordP

/-- Prove `In` for a sequence of loads, stores and calls of programs already treated. -/
macro "walk" : tactic => `(tactic| repeat' (first
  | assumption
  | apply In.bind
  | apply In.pure
  | exact .ret _
  | apply in_ldFe
  | apply in_stFe
  | apply in_ldS
  | apply in_stS
  | apply in_loc
  | (refine fun _ => ?_)))

theorem in_get {q : Rd F} (hq : RdIn U S q) : In U S (getP q) := by
  unfold getP; exact (hq 0).bind fun _ => (hq 1).bind fun _ => (hq 2).bind fun _ => (hq 3).bind fun _ => .pure _

section
variable {q r : Rd F} (hq : RdIn U S q) (hr : RdIn U S r)
include hq

theorem in_addExtended (hr : RdIn U S r) : In U S (addExtendedP q r) := by
  unfold addExtendedP; walk <;> first | exact hq _ | exact hr _
theorem in_subExtended (hr : RdIn U S r) : In U S (subExtendedP q r) := by
  unfold subExtendedP; walk <;> first | exact hq _ | exact hr _
theorem in_doubleExtended : In U S (doubleExtendedP q) := by
  unfold doubleExtendedP; walk <;> exact hq _
theorem in_addExtendedNiels {x : NielsPt F} : In U S (addExtendedNielsP q x) := by
  unfold addExtendedNielsP; walk <;> exact hq _
theorem in_equalsI (hr : RdIn U S r) : In U S (equalsIP q r) := by
  unfold equalsIP; walk <;> first | exact hq _ | exact hr _
theorem in_ristretto : In U S (ristrettoP q) := by
  unfold ristrettoP; walk <;> exact hq _
theorem in_add (hr : RdIn U S r) : In U S (addP q r) := (in_addExtended hq hr).bind fun _ => .pure _
theorem in_scalarMultLut : In U S (scalarMultLutP q) := by
  unfold scalarMultLutP
  refine (in_get hq).bind fun _ => (in_add (in_loc _) hq).bind fun _ => (in_add (in_loc _) hq).bind fun _ =>
    (in_add (in_loc _) hq).bind fun _ => (in_add (in_loc _) hq).bind fun _ => (in_add (in_loc _) hq).bind fun _ =>
    (in_add (in_loc _) hq).bind fun _ => (in_add (in_loc _) hq).bind fun _ => .pure _

variable {p : Nat} (hp : S (.pt p))
include hp
theorem in_set : In U S (setP p q) := by
  unfold setP; walk <;> first | exact hq _ | exact hp
theorem in_neg : In U S (negP p q) := by
  unfold negP; walk <;> first | exact hq _ | exact hp
theorem in_condSet {b : Int32} (hu : U (.pt p)) : In U S (condSetP p q b) := by
  unfold condSetP; walk <;> first | exact hq _ | exact hp | exact hu
end

section
variable {p : Nat} (hp : S (.pt p)) (hu : U (.pt p))
include hp
theorem in_zero : In U S (zeroP p : M F Unit) := by unfold zeroP; walk
theorem in_setCompleted {c : ComplPt F} : In U S (setCompletedP p c) := by unfold setCompletedP; walk

include hu
theorem in_setRistretto [BytesWithin F inPlace] {buf : Bytes 32} : In U S (setRistrettoP p buf : M F Bool) := by
  unfold setRistrettoP
  have h0 : ∀ fld, In U S (isNegP p fld : M F Int32) := fun _ => in_isNeg (inPlace := inPlace) hu fun _ => hp
  have h1 : ∀ fld, In U S (isNonZeroP p fld : M F Int32) := fun _ => in_isNonZero (inPlace := inPlace) hu fun _ => hp
  walk
  all_goals first | exact h0 _ | exact h1 _

theorem in_scalarMultStep {lut : List (ExtPt F)} {w : Int8} : In U S (scalarMultStepP lut p w) := by
  unfold scalarMultStepP
  exact (in_doubleExtended (in_var hu)).bind fun _ => (in_setCompleted hp).bind fun _ =>
    (in_addExtended (in_var hu) (in_loc _)).bind fun _ => in_setCompleted hp

theorem in_scalarMult {q : Rd F} (hq : RdIn U S q) {s : Bytes 32} : In U S (scalarMultP p q s) := by
  unfold scalarMultP
  refine (in_scalarMultLut hq).bind fun lut => (in_zero hp).bind fun _ => ?_
  generalize (computeScalarWindow5 s).reverse = ws
  induction ws with
  | nil => exact .ret _
  | cons w ws ih => exact (in_scalarMultStep hp hu).bind fun _ => ih

theorem in_varTimeDigit {d : Int8} {lut : List (ExtPt F)} : In U S (varTimeDigitP d lut p) := by
  unfold varTimeDigitP
  split
  · exact In.bind (Within.ofOption _ _ _) fun _ => in_addExtended (in_var hu) (in_loc _)
  · exact In.bind (Within.ofOption _ _ _) fun _ => in_subExtended (in_var hu) (in_loc _)

theorem in_varTimeLoop {naf : Nat → Int8} {lut : List (ExtPt F)} : ∀ fuel i, In U S (varTimeLoopP naf lut p fuel i)
  | 0, _ => .fail
  | fuel + 1, i => by
    unfold varTimeLoopP
    refine (in_varTimeDigit hp hu).bind fun cp => ?_
    cases i with
    | zero => exact in_setCompleted hp
    | succ i' =>
      dsimp only
      generalize nafSkip naf i' (ComplPt.doubleProjective cp.toProjective) = r
      refine (in_setCompleted hp).bind fun _ => ?_
      split
      · exact .ret _
      · exact in_varTimeLoop fuel _

theorem in_varTimeScalarMult {q : Rd F} (hq : RdIn U S q) {s : Bytes 32} : In U S (varTimeScalarMultP p q s) := by
  unfold varTimeScalarMultP
  refine (in_doubleExtended hq).bind fun _ => (in_get hq).bind fun _ => (in_zero hp).bind fun _ => ?_
  split
  · exact .ret _
  · exact in_varTimeLoop hp hu _ _

omit hp hu in
theorem in_selectLoop {bAbs : Int32} : ∀ (row : List (M F (NielsPt F))), (∀ e ∈ row, In U S e) →
    ∀ i x, In U S (selectLoopP bAbs i row x)
  | [], _, _, _ => .ret _
  | e :: row, h, i, x => by
    unfold selectLoopP
    exact (h e (by simp)).bind fun _ => in_selectLoop row (fun e he => h e (by simp [he])) _ _

/-- The loaders of a table access only `U`. -/
abbrev TabIn (U S : Var → Prop) (t : TabRd F) : Prop := ∀ row ∈ t, ∀ e ∈ row, In U S e

theorem in_tableAddLoop : ∀ (t : TabRd F), TabIn U S t → ∀ ws, In U S (tableAddLoopP p t ws)
  | [], _, ws => by cases ws <;> exact .ret _
  | row :: t, h, [] => .ret _
  | row :: t, h, w :: ws => by
    unfold tableAddLoopP
    refine In.bind ?_ fun _ => (in_addExtendedNiels (in_var hu)).bind fun _ => (in_setCompleted hp).bind fun _ =>
      in_tableAddLoop t (fun r hr => h r (by simp [hr])) ws
    exact (in_selectLoop row (h row (by simp)) _ _).bind fun _ => .pure _

theorem in_double4 : In U S (double4P p : M F Unit) :=
  (in_doubleExtended (in_var hu)).bind fun _ => in_setCompleted hp

theorem in_tableScalarMult {t : TabRd F} (ht : TabIn U S t) {s : Bytes 32} : In U S (tableScalarMultP p t s) :=
  (in_zero hp).bind fun _ => (in_tableAddLoop hp hu t ht _).bind fun _ => (in_double4 hp hu).bind fun _ =>
    in_tableAddLoop hp hu t ht _

omit hp hu in
theorem in_varTimeSelectPoint {row : List (M F (NielsPt F))} (h : ∀ e ∈ row, In U S e) {b : Int32} :
    In U S (varTimeSelectPointP row b) := by
  have hget : ∀ (i : Nat) (β : Type) (K : NielsPt F → M F β), (∀ x, In U S (K x)) →
      In U S (do let e ← ofOption (row[i]?); (e >>= K)) := by
    intro i β K hK
    cases e : row[i]? with
    | none => exact .fail
    | some x =>
      show In U S (x >>= K)
      exact In.bind (h x (List.mem_of_getElem? e)) hK
  have hget' : ∀ i : Nat, In U S (do let e ← ofOption (row[i]?); e) := by
    intro i
    cases e : row[i]? with
    | none => exact .fail
    | some x => exact h x (List.mem_of_getElem? e)
  unfold varTimeSelectPointP
  split
  · exact hget _ _ _ fun _ => .pure _
  · exact hget' _

theorem in_tableVarTimeLoop : ∀ (t : TabRd F), TabIn U S t → ∀ ws, In U S (tableVarTimeLoopP p t ws)
  | [], _, ws => by cases ws <;> exact .ret _
  | row :: t, h, [] => .ret _
  | row :: t, h, w :: ws => by
    unfold tableVarTimeLoopP
    have ih := in_tableVarTimeLoop t (fun r hr => h r (by simp [hr])) ws
    split
    · exact ih
    · exact (in_varTimeSelectPoint (h row (by simp))).bind fun _ =>
        (in_addExtendedNiels (in_var hu)).bind fun _ => (in_setCompleted hp).bind fun _ => ih

theorem in_tableVarTimeScalarMult {t : TabRd F} (ht : TabIn U S t) {s : Bytes 32} :
    In U S (tableVarTimeScalarMultP p t s) :=
  (in_zero hp).bind fun _ => (in_tableVarTimeLoop hp hu t ht _).bind fun _ => (in_double4 hp hu).bind fun _ =>
    in_tableVarTimeLoop hp hu t ht _
end

theorem in_tabVar {t : Nat} (h : U (.tab t)) : TabIn U S (tabVar t : TabRd F) := by
  intro row hr e he
  simp only [tabVar, List.mem_map] at hr
  obtain ⟨r, -, rfl⟩ := hr
  simp only [List.mem_map] at he
  obtain ⟨j, -, rfl⟩ := he
  exact (in_ldTab h).bind fun _ => (in_ldTab h).bind fun _ => (in_ldTab h).bind fun _ => .pure _

theorem in_tabConst {T : Table F} : TabIn U S (tabConst T) := by
  intro row hr e he
  simp only [tabConst, List.mem_map] at hr
  obtain ⟨r, -, rfl⟩ := hr
  simp only [List.mem_map] at he
  obtain ⟨j, -, rfl⟩ := he
  exact .ret _

theorem in_tableRow {t r : Nat} {cp : ExtPt F} (h : S (.tab t)) : ∀ n w c, In U S (tableRowP t r cp n w c)
  | 0, _, _ => .ret _
  | n + 1, w, c => by
    unfold tableRowP
    refine In.bind ?_ fun _ => in_tableRow h n _ _
    exact (in_stTab h).bind fun _ => (in_stTab h).bind fun _ => in_stTab h

theorem in_tableLoop {t : Nat} (h : S (.tab t)) : ∀ n i (cp : ExtPt F), In U S (tableLoopP t n i cp)
  | 0, _, _ => .ret _
  | n + 1, i, cp => by
    unfold tableLoopP
    exact (in_tableRow h _ _ _).bind fun _ => in_tableLoop h n _ _

theorem in_toJacobi [BytesWithin F inPlace] {p : Nat} (hu : U (.pt p)) (hW : inPlace = true → S (.pt p)) :
    In U S (toJacobiP p : M F _) := by
  unfold toJacobiP
  have h1 : ∀ fld, In U S (isNonZeroP p fld : M F Int32) := fun _ => in_isNonZero (inPlace := inPlace) hu hW
  walk
  all_goals exact h1 _

theorem in_sAdd {s a b : Nat} (hs : S (.sc s)) (us : U (.sc s)) (ua : U (.sc a)) (ub : U (.sc b)) :
    In U S (sAddP s a b : M F Unit) := by
  unfold sAddP
  have h1 := in_ldSc (F := F) (S := S) us
  have h2 : ∀ x, In U S (stSc s x : M F Unit) := fun _ => in_stSc hs
  walk
  all_goals exact h2 _

theorem in_sCondSet {s t : Nat} {b : Int32} (hs : S (.sc s)) (us : U (.sc s)) (ut : U (.sc t)) :
    In U S (sCondSetP s t b : M F Unit) := by
  unfold sCondSetP
  have h : ∀ m i, In U S (sCondWordP s t m i : M F Unit) := fun _ _ => in_sCondWord hs us ut
  walk
  all_goals exact h _ _
end

theorem in_sSetBytes {s : Nat} {x : Bytes 32} (hs : S (.sc s)) (us : U (.sc s)) :
    In U S (sSetBytesP s x : M F Unit) :=
  (in_stSc hs).bind fun _ => (in_ldSc us).bind fun _ => in_stSc hs

theorem in_sSetBytesStrict {s : Nat} {x : Bytes 32} (hs : S (.sc s)) :
    In U S (sSetBytesStrictP s x : M F Bool) := by
  unfold sSetBytesStrictP
  dsimp only
  split
  · exact .pure _
  · exact (in_stSc hs).bind fun _ => .pure _

/-- The variables a call stores to, in a build. -/
def setsIn (inPlace : Bool) (c : Cmd) : List Var := if inPlace then setsGeneric c else sets c

theorem in_call (inPlace : Bool) [BytesWithin F inPlace] (e : Env F) (c : Cmd) :
    In (· ∈ uses c) (· ∈ setsIn inPlace c) (callP e c) := by
  have hl : ∀ p, inPlace = true → Var.pt p ∈ setsIn inPlace (.pLizard p) := by
    intro p h; simp [setsIn, h, setsGeneric]
  have hl' : ∀ p b, inPlace = true → Var.pt p ∈ setsIn inPlace (.pLizardInto p b) := by
    intro p b h; simp [setsIn, h, setsGeneric]
  have hs : ∀ c x, x ∈ sets c → x ∈ setsIn inPlace c := by
    intro c x hx
    unfold setsIn
    split
    · cases c <;> first | exact hx | exact absurd hx (by simp [sets])
    · exact hx
  cases c with
  | pZero p => exact (in_zero (hs _ _ (by simp [sets]))).bind fun _ => .pure _
  | pBase p => exact (in_set (in_loc _) (hs _ _ (by simp [sets]))).bind fun _ => .pure _
  | pSet p q => exact (in_set (in_var (by simp [uses])) (hs _ _ (by simp [sets]))).bind fun _ => .pure _
  | pAdd p q r =>
    exact (in_addExtended (in_var (by simp [uses])) (in_var (by simp [uses]))).bind fun _ =>
      (in_setCompleted (hs _ _ (by simp [sets]))).bind fun _ => .pure _
  | pDouble p q =>
    exact (in_doubleExtended (in_var (by simp [uses]))).bind fun _ =>
      (in_setCompleted (hs _ _ (by simp [sets]))).bind fun _ => .pure _
  | pSub p q r =>
    exact (in_subExtended (in_var (by simp [uses])) (in_var (by simp [uses]))).bind fun _ =>
      (in_setCompleted (hs _ _ (by simp [sets]))).bind fun _ => .pure _
  | pNeg p q => exact (in_neg (in_var (by simp [uses])) (hs _ _ (by simp [sets]))).bind fun _ => .pure _
  | pBytes p => exact (in_ristretto (in_var (by simp [uses]))).bind fun _ => .pure _
  | pSetBytes p buf =>
    exact (in_setRistretto (inPlace := inPlace) (hs _ _ (by simp [sets])) (by simp [uses])).bind fun _ => .pure _
  | pSetElligator p buf => exact (in_setCompleted (hs _ _ (by simp [sets]))).bind fun _ => .pure _
  | pRand p buf => exact (in_setCompleted (hs _ _ (by simp [sets]))).bind fun _ => .pure _
  | pDerive p data => exact (in_setCompleted (hs _ _ (by simp [sets]))).bind fun _ => .pure _
  | pDeriveDalek p data =>
    exact (in_setCompleted (hs _ _ (by simp [sets]))).bind fun _ =>
      (in_addExtended (in_var (by simp [uses])) (in_loc _)).bind fun _ =>
      (in_setCompleted (hs _ _ (by simp [sets]))).bind fun _ => .pure _
  | pSetLizard p data => exact (in_setCompleted (hs _ _ (by simp [sets]))).bind fun _ => .pure _
  | pLizard p => exact (in_toJacobi (inPlace := inPlace) (by simp [uses]) (hl p)).bind fun _ => .pure _
  | pLizardInto p buf =>
    exact (in_toJacobi (inPlace := inPlace) (by simp [uses]) (hl' p buf)).bind fun _ => .pure _
  | pEqualsI p q => exact (in_equalsI (in_var (by simp [uses])) (in_var (by simp [uses]))).bind fun _ => .pure _
  | pEquals p q => exact (in_equalsI (in_var (by simp [uses])) (in_var (by simp [uses]))).bind fun _ => .pure _
  | pCondSet p q b =>
    exact (in_condSet (in_var (by simp [uses])) (hs _ _ (by simp [sets])) (by simp [uses])).bind fun _ => .pure _
  | pUnmarshalBinary p data =>
    simp only [callP]
    split
    · exact .pure _
    · exact (in_setRistretto (inPlace := inPlace) (hs _ _ (by simp [sets])) (by simp [uses])).bind fun _ => .pure _
  | pMarshalText p => exact (in_ristretto (in_var (by simp [uses]))).bind fun _ => .pure _
  | pUnmarshalText p txt =>
    simp only [callP]
    split
    · exact .fail
    · exact .pure _
    · exact (in_setRistretto (inPlace := inPlace) (hs _ _ (by simp [sets])) (by simp [uses])).bind fun _ => .pure _
  | pScalarMult p q s =>
    exact (in_ldSc (by simp [uses])).bind fun _ =>
      (in_scalarMult (hs _ _ (by simp [sets])) (by simp [uses]) (in_var (by simp [uses]))).bind fun _ => .pure _
  | pPublicScalarMult p q s =>
    exact (in_ldSc (by simp [uses])).bind fun _ =>
      (in_varTimeScalarMult (hs _ _ (by simp [sets])) (by simp [uses]) (in_var (by simp [uses]))).bind fun _ => .pure _
  | pScalarMultBase p s =>
    exact (in_ldSc (by simp [uses])).bind fun _ =>
      (in_tableScalarMult (hs _ _ (by simp [sets])) (by simp [uses]) in_tabConst).bind fun _ => .pure _
  | pPublicScalarMultBase p s =>
    exact (in_ldSc (by simp [uses])).bind fun _ =>
      (in_tableVarTimeScalarMult (hs _ _ (by simp [sets])) (by simp [uses]) in_tabConst).bind fun _ => .pure _
  | pScalarMultTable p t s =>
    exact (in_ldSc (by simp [uses])).bind fun _ =>
      (in_tableScalarMult (hs _ _ (by simp [sets])) (by simp [uses]) (in_tabVar (by simp [uses]))).bind fun _ => .pure _
  | pPublicScalarMultTable p t s =>
    exact (in_ldSc (by simp [uses])).bind fun _ =>
      (in_tableVarTimeScalarMult (hs _ _ (by simp [sets])) (by simp [uses]) (in_tabVar (by simp [uses]))).bind
        fun _ => .pure _
  | tCompute t p =>
    refine In.bind ?_ fun _ => .pure _
    exact (in_get (in_var (by simp [uses]))).bind fun _ => in_tableLoop (hs _ _ (by simp [sets])) _ _ _
  | sZero s => exact (in_stSc (hs _ _ (by simp [sets]))).bind fun _ => .pure _
  | sOne s => exact (in_stSc (hs _ _ (by simp [sets]))).bind fun _ => .pure _
  | sSet s a | sNeg s a | sSquare s a | sInverse s a =>
    exact (in_ldSc (by simp [uses])).bind fun _ => (in_stSc (hs _ _ (by simp [sets]))).bind fun _ => .pure _
  | sAdd s a b =>
    exact (in_sAdd (hs _ _ (by simp [sets])) (by simp [uses]) (by simp [uses]) (by simp [uses])).bind fun _ => .pure _
  | sSub s a b | sMul s a b =>
    exact (in_ldSc (by simp [uses])).bind fun _ => (in_ldSc (by simp [uses])).bind fun _ =>
      (in_stSc (hs _ _ (by simp [sets]))).bind fun _ => .pure _
  | sMulAdd s a b c | sMulSub s a b c =>
    exact (in_ldSc (by simp [uses])).bind fun _ => (in_ldSc (by simp [uses])).bind fun _ =>
      (in_ldSc (by simp [uses])).bind fun _ => (in_stSc (hs _ _ (by simp [sets]))).bind fun _ => .pure _
  | sCondSet s a b =>
    exact (in_sCondSet (hs _ _ (by simp [sets])) (by simp [uses]) (by simp [uses])).bind fun _ => .pure _
  | sSetBytes s buf => exact (in_sSetBytes (hs _ _ (by simp [sets])) (by simp [uses])).bind fun _ => .pure _
  | sSetBytesStrict s buf => exact (in_sSetBytesStrict (hs _ _ (by simp [sets]))).bind fun _ => .pure _
  | sSetReduced s _ | sRand s _ | sDerive s _ | sDeriveShort s _ | sSetBigInt s _ | sSetUint64 s _ =>
    exact (in_stSc (hs _ _ (by simp [sets]))).bind fun _ => .pure _
  | sUnmarshalBinary s data =>
    simp only [callP]
    split
    · exact (in_sSetBytes (hs _ _ (by simp [sets])) (by simp [uses])).bind fun _ => .pure _
    · exact .pure _
  | sUnmarshalText s txt =>
    simp only [callP]
    split
    · exact .fail
    · exact .pure _
    · split
      · exact .pure _
      · exact (in_sSetBytes (hs _ _ (by simp [sets])) (by simp [uses])).bind fun _ => .pure _
  | sBytes s | sMarshalText s | sBigInt s | sIsNonZeroI s =>
    exact (in_ldSc (by simp [uses])).bind fun _ => .pure _
  | sEqualsI s a | sEquals s a =>
    exact (in_ldSc (by simp [uses])).bind fun _ => (in_ldSc (by simp [uses])).bind fun _ => .pure _

/-- What the calls of a goroutine use. -/
def UsedBy (cs : List Cmd) (x : Var) : Prop := ∃ c ∈ cs, x ∈ uses c
/-- What the calls of a goroutine set, in a build. -/
def SetBy (inPlace : Bool) (cs : List Cmd) (x : Var) : Prop := ∃ c ∈ cs, x ∈ setsIn inPlace c

theorem in_go (inPlace : Bool) [BytesWithin F inPlace] (e : Env F) : ∀ cs : List Cmd,
    In (UsedBy cs) (SetBy inPlace cs) (goP e cs)
  | [] => .ret _
  | c :: cs => by
    unfold goP
    refine In.bind ?_ fun _ => In.bind ?_ fun _ => .pure _
    · refine (in_call inPlace e c).mono (fun l h => .inl ⟨c, by simp, h⟩) fun l h => ⟨c, by simp, h⟩
    · refine (in_go inPlace e cs).mono (fun l h => .inl ?_) fun l h => ?_
      · obtain ⟨d, h1, h2⟩ := h; exact ⟨d, by simp [h1], h2⟩
      · obtain ⟨d, h1, h2⟩ := h; exact ⟨d, by simp [h1], h2⟩

/-- A call uses what it sets. -/
theorem sets_uses (inPlace : Bool) (c : Cmd) (x : Var) (h : x ∈ setsIn inPlace c) : x ∈ uses c := by
  unfold setsIn at h
  split at h
  · cases c <;> simp_all [setsGeneric, sets, uses]
  · cases c <;> simp_all [sets, uses]

end Ristretto.Proofs.Conc
