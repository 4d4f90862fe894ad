import Verif.Model.EdGeneric
import Verif.Spec.EdField
import Verif.Proofs.EdMachine
import Verif.Proofs.Field25Wide

/-!
# Programs over field elements: the generic build, the default build and the integers modulo p
-/

namespace Ristretto.Proofs.Ed
open Model hiding Mem Cmd exec run bit Out
open Model.Ed FieldOps Ristretto.Ed
open Sim (F2)
set_option autoImplicit false

/-- The methods of `FieldElement` follow those of GF(p) along `Q`. -/
structure FSim {F : Type} [FieldOps F] (Q : F → Fp → Prop) : Prop where
  zero : Q feZero feZero
  one : Q feOne feOne
  i : Q feI feI
  add : ∀ {a b : F} {x y : Fp}, Q a x → Q b y → Q (feAdd a b) (feAdd x y)
  sub : ∀ {a b : F} {x y : Fp}, Q a x → Q b y → Q (feSub a b) (feSub x y)
  neg : ∀ {a : F} {x : Fp}, Q a x → Q (neg a) (neg x)
  mul : ∀ {a b : F} {x y : Fp}, Q a x → Q b y → Q (mul a b) (mul x y)
  sq : ∀ {a : F} {x : Fp}, Q a x → Q (square a) (square x)
  dsq : ∀ {a : F} {x : Fp}, Q a x → Q (doubledSquare a) (doubledSquare x)
  inverse : ∀ {a : F} {x : Fp}, Q a x → Q (feInverse a) (feInverse x)
  exp : ∀ {a : F} {x : Fp}, Q a x → Q (exp22523 a) (exp22523 x)
  invSqrt : ∀ {a : F} {x : Fp}, Q a x → Q (invSqrt a) (invSqrt x)
  sqrt : ∀ {a : F} {x : Fp}, Q a x → Q (feSqrt a) (feSqrt x)
  invSqrtI : ∀ {a : F} {x : Fp}, Q a x → Q (invSqrtI a).1 (invSqrtI x).1 ∧ (Model.invSqrtI a).2 = (Model.invSqrtI x).2
  setBytes : ∀ b : Bytes 32, Q (setBytes b) (setBytes b)
  cond : ∀ {a b : F} {x y : Fp} {c c' : Int32}, Q a x → Q b y → F2 c c' → Q (condSet a b c) (condSet x y c')
  touch : ∀ {a : F} {x : Fp}, Q a x → Q (touch a) (touch x)
  bytes : ∀ {a : F} {x : Fp}, Q a x → bytes a = bytes x
  isNeg : ∀ {a : F} {x : Fp}, Q a x → F2 (isNegativeI a) (isNegativeI x)
  isOne : ∀ {a : F} {x : Fp}, Q a x → isOneI a = isOneI x
  diff : ∀ {a b : F} {x y : Fp}, Q a x → Q b y → isNonZeroI (FieldOps.sub a b) = isNonZeroI (FieldOps.sub x y)

section
variable {F : Type} [FieldOps F] {Q : F → Fp → Prop}

def MSim (Q : F → Fp → Prop) (m : Mem F) (m' : Mem Fp) : Prop := ∀ i, Q (m.fes i) (m'.fes i)

theorem MSim.set {m : Mem F} {m' : Mem Fp} (h : MSim Q m m') (f : ℕ) {v : F} {w : Fp} (hv : Q v w) :
    MSim Q (m.setFe f v) (m'.setFe f w) := by
  intro i
  show Q (if i = f then v else m.fes i) (if i = f then w else m'.fes i)
  split
  · exact hv
  · exact h i

theorem MSim.touch (H : FSim Q) {m : Mem F} {m' : Mem Fp} (h : MSim Q m m') (f : ℕ) :
    MSim Q (m.touchFe f) (m'.touchFe f) := h.set f (H.touch (h f))

theorem bit_F2 (b : Bool) : F2 (Ed.bit b) (Ed.bit b) := ⟨rfl, by cases b <;> simp [Ed.bit, Sim.Flag]⟩

/-- One call. -/
theorem gexec_sim (H : FSim Q) {m : Mem F} {m' : Mem Fp} (h : MSim Q m m') (c : Cmd) (hc : OnField c) :
    ∃ r r', gexec m c = some r ∧ gexec m' c = some r' ∧ r.2 = r'.2 ∧ MSim Q r.1 r'.1 := by
  cases c
  case fZero f => exact ⟨_, _, rfl, rfl, rfl, h.set f H.zero⟩
  case fOne f => exact ⟨_, _, rfl, rfl, rfl, h.set f H.one⟩
  case fI f => exact ⟨_, _, rfl, rfl, rfl, h.set f H.i⟩
  case fSet f x => exact ⟨_, _, rfl, rfl, rfl, h.set f (h x)⟩
  case fAdd f x y => exact ⟨_, _, rfl, rfl, rfl, h.set f (H.add (h x) (h y))⟩
  case fSub f x y => exact ⟨_, _, rfl, rfl, rfl, h.set f (H.sub (h x) (h y))⟩
  case fNeg f x => exact ⟨_, _, rfl, rfl, rfl, h.set f (H.neg (h x))⟩
  case fMul f x y => exact ⟨_, _, rfl, rfl, rfl, h.set f (H.mul (h x) (h y))⟩
  case fSquare f x => exact ⟨_, _, rfl, rfl, rfl, h.set f (H.sq (h x))⟩
  case fDoubledSquare f x => exact ⟨_, _, rfl, rfl, rfl, h.set f (H.dsq (h x))⟩
  case fInverse f x => exact ⟨_, _, rfl, rfl, rfl, h.set f (H.inverse (h x))⟩
  case fAbs f x =>
    refine ⟨_, _, rfl, rfl, rfl, ?_⟩
    have h1 := h.set f (h x)
    have h2 := h1.touch H x
    exact h2.set f (H.cond (h2 f) (H.neg (h x)) (H.isNeg (h1 x)))
  case fExp22523 f x => exact ⟨_, _, rfl, rfl, rfl, h.set f (H.exp (h x))⟩
  case fInvSqrt f x => exact ⟨_, _, rfl, rfl, rfl, h.set f (H.invSqrt (h x))⟩
  case fSqrt f x => exact ⟨_, _, rfl, rfl, rfl, h.set f (H.sqrt (h x))⟩
  case fInvSqrtI f x =>
    obtain ⟨h1, h2⟩ := H.invSqrtI (h x)
    exact ⟨_, _, rfl, rfl, congrArg Ed.Out.int32 h2, h.set f h1⟩
  case fSetBytes f b => exact ⟨_, _, rfl, rfl, rfl, h.set f (H.setBytes b)⟩
  case fSetBigInt f x => exact ⟨_, _, rfl, rfl, rfl, h.set f (H.setBytes _)⟩
  case fCondSet f x b => exact ⟨_, _, rfl, rfl, rfl, h.set f (H.cond (h f) (h x) (bit_F2 b))⟩
  case fBytes f => exact ⟨_, _, rfl, rfl, congrArg Ed.Out.bytes (H.bytes (h f)), h.touch H f⟩
  case fBigInt f =>
    refine ⟨_, _, rfl, rfl, congrArg Ed.Out.nat ?_, h.touch H f⟩
    unfold feBigInt
    rw [H.bytes (h f)]
  case fIsNegativeI f => exact ⟨_, _, rfl, rfl, congrArg Ed.Out.int32 (H.isNeg (h f)).1, h.touch H f⟩
  case fIsNonZeroI f =>
    refine ⟨_, _, rfl, rfl, congrArg Ed.Out.int32 ?_, h.touch H f⟩
    unfold isNonZeroI
    rw [H.bytes (h f)]
  case fIsOneI f => exact ⟨_, _, rfl, rfl, congrArg Ed.Out.int32 (H.isOne (h f)), h⟩
  case fEqualsI f x =>
    refine ⟨_, _, rfl, rfl, congrArg Ed.Out.int32 ?_, h⟩
    unfold feEqualsI
    rw [H.diff (h f) (h x)]
  case fEquals f x =>
    refine ⟨_, _, rfl, rfl, congrArg Ed.Out.bool ?_, h⟩
    unfold feEquals
    rw [H.diff (h f) (h x)]
  all_goals exact hc.elim

/-- A program. -/
theorem grun_sim (H : FSim Q) : ∀ (prog : List Cmd), (∀ c ∈ prog, OnField c) → ∀ {m : Mem F} {m' : Mem Fp}, MSim Q m m' →
    ∃ r r', grun m prog = some r ∧ grun m' prog = some r' ∧ r.2 = r'.2 ∧ MSim Q r.1 r'.1
  | [], _, m, m', h => ⟨_, _, rfl, rfl, rfl, h⟩
  | c :: cs, hp, m, m', h => by
    obtain ⟨r, r', h1, h2, h3, h4⟩ := gexec_sim H h c (hp c List.mem_cons_self)
    obtain ⟨s, s', k1, k2, k3, k4⟩ := grun_sim H cs (fun c' hc' => hp c' (List.mem_cons_of_mem _ hc')) h4
    refine ⟨(s.1, r.2 :: s.2), (s'.1, r'.2 :: s'.2), ?_, ?_, ?_, k4⟩
    · simp only [grun, h1, k1]
    · simp only [grun, h2, k2]
    · simp only [h3, k3]

/-- Where `BytesInto` leaves its receiver alone, the two machines are the same on field elements. -/
theorem gexec_eq (ht : ∀ x : F, touch x = x) (m : Mem F) (c : Cmd) : gexec m c = exec m c := by
  have e1 : ∀ f v, v = m.fes f → m.setFe f v = m := by
    rintro f v rfl
    unfold Mem.setFe; congr 1; funext k; split <;> simp_all
  have e : ∀ f, m.touchFe f = m := fun f => e1 f _ (ht _)
  cases c
  case fBytes f => simp only [gexec, exec, e]
  case fBigInt f => simp only [gexec, exec, e]
  case fIsNegativeI f => simp only [gexec, exec, e]
  case fIsNonZeroI f => simp only [gexec, exec, e]
  case fAbs f x =>
    simp only [gexec, exec, absI, feAbs, Mem.touchFe, ht]
    congr 2
    unfold Mem.setFe
    simp only
    congr 1
    funext k
    by_cases h1 : k = f <;> by_cases h2 : k = x <;> by_cases h3 : x = f <;> simp_all
  all_goals rfl

theorem grun_eq (ht : ∀ x : F, touch x = x) : ∀ (prog : List Cmd) (m : Mem F), grun m prog = run m prog
  | [], _ => rfl
  | c :: cs, m => by
    simp only [grun, run, gexec_eq ht]
    cases exec m c with
    | none => rfl
    | some r =>
      simp only [grun_eq ht cs r.1]
      cases run r.1 cs <;> rfl

end

/-! The generic build -/

theorem R4.bytes {a : Fe25} {x : Fp} (h : Fe25.R 4 a x) : FieldOps.bytes a = FieldOps.bytes x := by
  apply leVal_inj
  rw [LawfulField.bytes_law (F := Fp) (a := x) trivial]
  exact (Fe25.bytes_specW a (Fe25.Limbs25.mono h.1 (by decide) (by decide))).trans (by rw [h.2]; rfl)

theorem fsim25 : FSim (Fe25.R 2) where
  zero := Fe25.rZero.mono
  one := Fe25.rOne.mono
  i := Fe25.rI.mono
  add h h' := (h.add h').norm.mono
  sub h h' := (h.sub h').norm.mono
  neg h := h.neg
  mul h h' := (h.mul h').mono
  sq h := h.sq.mono
  dsq h := h.dsq.mono
  inverse h := Fe25.R.mono (Sim.R.inverse (L := Fe25.simField) h)
  exp h := Fe25.R.mono (Sim.R.exp22523 (L := Fe25.simField) h)
  invSqrt h := Fe25.R.mono (Sim.R.invSqrt (L := Fe25.simField) h)
  sqrt h := Sim.R.sqrt (L := Fe25.simField) h
  invSqrtI h := by
    obtain ⟨h1, h2⟩ := Sim.R.invSqrtI (L := Fe25.simField) h
    exact ⟨Fe25.R.mono h1, h2.1⟩
  setBytes b := (Fe25.R.setBytes b).mono
  cond h h' hc := h.cond h' hc
  touch h := h.touch
  bytes h := h.bytes
  isNeg h := h.isNeg
  isOne h := (Sim.R.isOne (L := Fe25.simField) h).1
  diff h h' := by
    have e := R4.bytes ((Fe25.R.sub (m := 2) (n := 2) h h').mono (n := 4))
    unfold isNonZeroI
    rw [e]

theorem msim25 : MSim (Fe25.R 2) (Mem.init : Mem Fe25) (Mem.init : Mem Fp) := fun _ => fsim25.zero

/-! The other builds -/

section
variable {F : Type} [LawfulField F]
open LawfulField

/-- The element is within bounds and stands for `x`. -/
def E (n : ℕ) (a : F) (x : Fp) : Prop := bd n a ∧ eval a = x

namespace E
variable {m n : ℕ} {a b : F} {x y : Fp}

theorem mono (h : E m a x) (hmn : m ≤ n := by norm_num) : E n a x := ⟨bd_mono hmn h.1, h.2⟩
theorem mul (h : E m a x) (h' : E n b y) (hm : m ≤ 6 := by norm_num) (hn : n ≤ 6 := by norm_num) :
    E 1 (FieldOps.mul a b) (FieldOps.mul x y) := by
  obtain ⟨h1, h2⟩ := mul_law (bd_mono hm h.1) (bd_mono hn h'.1)
  exact ⟨h1, by rw [h2, h.2, h'.2]; rfl⟩
theorem sq (h : E m a x) (hm : m ≤ 6 := by norm_num) : E 1 (FieldOps.square a) (FieldOps.square x) := by
  obtain ⟨h1, h2⟩ := square_law (bd_mono hm h.1)
  exact ⟨h1, by rw [h2, h.2]; rfl⟩
theorem neg (h : E m a x) (hm : m ≤ 6 := by norm_num) : E 2 (FieldOps.neg a) (FieldOps.neg x) := by
  obtain ⟨h1, h2⟩ := neg_law (bd_mono hm h.1)
  exact ⟨h1, by rw [h2, h.2]; rfl⟩
theorem sub (h : E m a x) (h' : E n b y) (hm : m ≤ 6 := by norm_num) (hn : n ≤ 6 := by norm_num) :
    E (m + 2) (FieldOps.sub a b) (FieldOps.sub x y) := by
  obtain ⟨h1, h2⟩ := sub_law h.1 (bd_mono hn h'.1) hm
  exact ⟨h1, by rw [h2, h.2, h'.2]; rfl⟩
theorem norm (h : E m a x) (hm : m ≤ 12 := by norm_num) : E 1 (FieldOps.normalize a) (FieldOps.normalize x) := by
  obtain ⟨h1, h2⟩ := normalize_law (bd_mono hm h.1)
  exact ⟨h1, by rw [h2, h.2]; rfl⟩
theorem bytes (h : E m a x) (hm : m ≤ 12 := by norm_num) : FieldOps.bytes a = FieldOps.bytes x := by
  apply leVal_inj
  rw [bytes_law (bd_mono hm h.1), bytes_law (F := Fp) (a := x) trivial, h.2]
  rfl
theorem isNonZero (h : E m a x) (hm : m ≤ 12 := by norm_num) : isNonZeroI a = isNonZeroI x := by
  unfold isNonZeroI; rw [h.bytes hm]
theorem isNeg (h : E m a x) (hm : m ≤ 12 := by norm_num) : F2 (isNegativeI a) (isNegativeI x) := by
  refine ⟨?_, ?_⟩
  · unfold isNegativeI; rw [h.bytes hm]
  · rw [isNegativeI_spec (F := Fp) (x := x) trivial]; exact Fe25.flag_flag _
theorem one : E 1 (feOne : F) (feOne : Fp) := ⟨bd_feOne, eval_feOne⟩
theorem i : E 1 (feI : F) (feI : Fp) := ⟨bd_feI, eval_feI⟩
theorem isOne (h : E m a x) (hm : m ≤ 6 := by norm_num) : F2 (isOneI a) (isOneI x) := by
  refine ⟨?_, ?_⟩
  · unfold isOneI; rw [(h.sub one hm).isNonZero (by omega)]
  · rw [isOneI_spec (F := Fp) trivial]; exact Fe25.flag_flag _
theorem equals (h : E m a x) (h' : E n b y) (hm : m ≤ 6 := by norm_num) (hn : n ≤ 6 := by norm_num) :
    F2 (feEqualsI a b) (feEqualsI x y) := by
  refine ⟨?_, ?_⟩
  · unfold feEqualsI; rw [(h.sub h' hm hn).isNonZero (by omega)]
  · rw [feEqualsI_spec (F := Fp) trivial trivial]; exact Fe25.flag_flag _
theorem cond {c c' : Int32} (h : E n a x) (h' : E n b y) (hc : F2 c c') : E n (condSet a b c) (condSet x y c') := by
  obtain ⟨rfl, hc⟩ := hc
  rcases hc with rfl | rfl
  · rw [condSet_zero, condSet_zero]; exact h
  · rw [condSet_one, condSet_one]; exact h'
theorem touch (h : E n a x) : E n (FieldOps.touch a) (FieldOps.touch x) := by
  obtain ⟨h1, h2⟩ := touch_law h.1
  exact ⟨h1, h2.trans h.2⟩
theorem inverse (h : E m a x) (hm : m ≤ 6 := by norm_num) : E 1 (feInverse a) (feInverse x) := by
  obtain ⟨h1, h2⟩ := feInverse_spec (bd_mono hm h.1)
  obtain ⟨-, h4⟩ := feInverse_spec (F := Fp) (a := x) trivial
  exact ⟨h1, by rw [h2, h.2]; exact h4.symm⟩
theorem exp (h : E m a x) (hm : m ≤ 6 := by norm_num) : E 1 (exp22523 a) (exp22523 x) := by
  obtain ⟨h1, h2⟩ := exp22523_pow (bd_mono hm h.1)
  obtain ⟨-, h4⟩ := exp22523_pow (F := Fp) (a := x) trivial
  exact ⟨h1, by rw [h2, h.2]; exact h4.symm⟩
theorem invSqrt (h : E m a x) (hm : m ≤ 6 := by norm_num) : E 1 (Model.invSqrt a) (Model.invSqrt x) := by
  have d2 := h.sq hm
  have d3 := d2.mul h (by norm_num) hm
  have d6 := d2.mul d2.sq
  have t := ((d6.mul h (by norm_num) hm).exp).mul d3
  have chk := t.sq.mul h (by norm_num) hm
  exact t.cond (t.mul i) chk.isOne.not
theorem sqrt (h : E m a x) (hm : m ≤ 6 := by norm_num) : E 2 (feSqrt a) (feSqrt x) := by
  have f := (h.invSqrt hm).mul h (by norm_num) hm
  exact (f.touch.mono).cond f.neg f.isNeg
theorem invSqrtI (h : E m a x) (hm : m ≤ 6 := by norm_num) :
    E 1 (Model.invSqrtI a).1 (Model.invSqrtI x).1 ∧ (Model.invSqrtI a).2 = (Model.invSqrtI x).2 := by
  have d2 := h.sq hm
  have d3 := d2.mul h (by norm_num) hm
  have d6 := d2.mul d2.sq
  have t := ((d6.mul h (by norm_num) hm).exp).mul d3
  have chk := t.sq.mul h (by norm_num) hm
  have cA := chk.isOne
  have cD := chk.equals i
  have cB := chk.neg.isOne
  obtain ⟨f1, f2⟩ := Fe25.not_both (FieldOps.mul (FieldOps.square _) x)
  exact ⟨t.mul (one.cond i ⟨congrArg₂ (· + ·) cB.1 cD.1, f1⟩), congrArg₂ (· + ·) cA.1 cB.1⟩

end E

theorem fsimLaw : FSim (E 2 : F → Fp → Prop) where
  zero := E.mono (m := 1) ⟨bd_feZero, eval_feZero⟩
  one := E.one.mono
  i := E.i.mono
  add h h' := by
    obtain ⟨h1, h2⟩ := add_law h.1 h'.1 (by norm_num)
    exact E.mono (E.norm (m := 4) ⟨h1, by rw [h2, h.2, h'.2]; rfl⟩)
  sub h h' := (h.sub h').norm.mono
  neg h := h.neg
  mul h h' := (h.mul h').mono
  sq h := h.sq.mono
  dsq h := by
    obtain ⟨h1, h2⟩ := doubledSquare_law (bd_mono (by norm_num) h.1)
    exact ⟨h1, by rw [h2, h.2]; rfl⟩
  inverse h := h.inverse.mono
  exp h := h.exp.mono
  invSqrt h := h.invSqrt.mono
  sqrt h := h.sqrt
  invSqrtI h := ⟨(h.invSqrtI).1.mono, (h.invSqrtI).2⟩
  setBytes b := E.mono (m := 1) ⟨(setBytes_law b).1, (setBytes_law b).2⟩
  cond h h' hc := h.cond h' hc
  touch h := h.touch
  bytes h := h.bytes
  isNeg h := h.isNeg
  isOne h := h.isOne.1
  diff h h' := (h.sub h').isNonZero

end

/-- The generic build computes what GF(p) and the default build compute. -/
theorem generic_fields (prog : List Cmd) (hp : ∀ c ∈ prog, OnField c) :
    ∃ m m' outs a, grun (Mem.init : Mem Fe25) prog = some (m, outs) ∧ run (Mem.init : Mem Fe51) prog = some (m', outs) ∧
      ARun AState.init prog a outs ∧ (∀ i, Fe25.R 2 (m.fes i) (a.fes i)) ∧ ∀ i, E 2 (m'.fes i) (a.fes i) := by
  obtain ⟨r, s, h1, h2, h3, h4⟩ := grun_sim fsim25 prog hp msim25
  obtain ⟨r', s', k1, k2, k3, k4⟩ := grun_sim (F := Fe51) fsimLaw prog hp (m := Mem.init) (m' := Mem.init) fun _ => fsimLaw.zero
  obtain rfl : s = s' := Option.some.inj (h2.symm.trans k2)
  rw [grun_eq (fun _ => rfl)] at k1 h2
  obtain ⟨a, j1, j2⟩ := run_step (F := Fp) prog denotes_init (m' := s.1) (os := s.2) h2
  have e : ∀ i, s.1.fes i = a.fes i := fun i => (j2.fe i).2
  refine ⟨r.1, r'.1, s.2, a, ?_, ?_, j1, fun i => e i ▸ h4 i, fun i => e i ▸ k4 i⟩
  · rw [h1, ← h3]
  · rw [k1, ← k3]

end Ristretto.Proofs.Ed
