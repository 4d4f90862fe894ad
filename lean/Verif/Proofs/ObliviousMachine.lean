import Verif.Proofs.Oblivious
import Verif.Spec.Oblivious

/-!
# Programs on words nobody knows

The value of a symbolic call is the call of the model on the values.
-/

namespace Ristretto.Proofs.Obl
set_option autoImplicit false
open Ristretto.Model Ristretto.Model.Obl Ristretto.Proofs

variable {K F : Type} [SymOps K] [FieldOps F] [Sym K F] [LawfulSym K F] (ρ : (t : Ty) → Name → t.Val)

theorem valPt_eq (p : ExtPt K) : valPt ρ p = evPt ρ p := (rfl)

theorem setPt_val (m : SMem K) (p : Nat) (x : ExtPt K) : valMem ρ (m.setPt p x) = (valMem ρ m).setPt p (evPt ρ x) := by
  simp only [valMem, SMem.setPt, Mem.setPt, Mem.mk.injEq, and_true]
  funext k
  simp only [← valPt_eq]
  split <;> rfl
theorem setSc_val (m : SMem K) (s : Nat) (x : SScalar) : valMem ρ (m.setSc s x) = (valMem ρ m).setSc s (evS ρ x) := by
  simp only [valMem, SMem.setSc, Mem.setSc, Mem.mk.injEq, and_true, true_and]
  funext k
  split <;> rfl
theorem setTab_val (m : SMem K) (t : Nat) (x : Table K) : valMem ρ (m.setTab t x) = (valMem ρ m).setTab t (evTable ρ x) := by
  simp only [valMem, SMem.setTab, Mem.setTab, Mem.mk.injEq, true_and]
  funext k
  split <;> rfl
theorem pts_val (m : SMem K) (p : Nat) : (valMem ρ m).pts p = evPt ρ (m.pts p) := (rfl)
theorem scs_val (m : SMem K) (p : Nat) : (valMem ρ m).scs p = evS ρ (m.scs p) := (rfl)
theorem tabs_val (m : SMem K) (p : Nat) : (valMem ρ m).tabs p = evTable ρ (m.tabs p) := (rfl)

/-- The variables for the arguments of call `k` have the values of the arguments of `c`. -/
structure ArgsOk (k : Nat) (c : Cmd) : Prop where
  bytes : ∀ j, ρ .u8 (.arg k j) = (argBytes c).getD j 0
  flag : ρ .i32 (.arg k 0) = argBit c
  num : ρ .u64 (.arg k 0) = argNum c

theorem array_val {k n : Nat} {c : Cmd} (h : ArgsOk ρ k c) (b : Bytes n) (hb : argBytes c = b.toList) :
    evB ρ (argArray k n) = b := by
  apply Vector.ext
  intro i hi
  simp only [evB, argArray, Vector.getElem_map, Vector.getElem_ofFn]
  refine (h.bytes i).trans ?_
  rw [hb, List.getD_eq_getElem?_getD, List.getElem?_eq_getElem (by simpa using hi)]
  simp
theorem slice_val {k : Nat} {c : Cmd} (h : ArgsOk ρ k c) (l : List UInt8) (hl : argBytes c = l) :
    (argSlice k l.length).map (ev ρ) = l := by
  apply List.ext_getElem
  · simp [argSlice]
  · intro i h1 h2
    simp only [argSlice, List.getElem_map, List.getElem_range]
    refine (h.bytes i).trans ?_
    rw [hl, List.getD_eq_getElem?_getD, List.getElem?_eq_getElem h2]
    rfl
theorem toArray32_val (l : List U8) : evB ρ (toArray32 l) = toBytes 32 (l.map (ev ρ)) := by
  apply Vector.ext
  intro i hi
  simp only [evB, toArray32, toBytes, Vector.getElem_map, Vector.getElem_ofFn, List.getD_eq_getElem?_getD, List.getElem?_map]
  cases l[i]? <;> rfl
theorem const_val (s : Scalar) : evS ρ (s.map .lit) = s := by
  simp only [evS, Vector.map_map]; exact Vector.map_id _
theorem recv_val (p : ExtPt K) : evPt ρ (toJacobiQuarticRistrettoRecv p) = toJacobiQuarticRistrettoRecv (evPt ρ p) := by
  obl [toJacobiQuarticRistrettoRecv, evPt]
theorem toBytes32 (l : List UInt8) (h : l.length = 32) : (⟨l.toArray, by simpa using h⟩ : Bytes 32) = toBytes 32 l := by
  apply Vector.ext
  intro i hi
  simp [toBytes, List.getD_eq_getElem?_getD, h, hi]

/-- One call. -/
theorem sexec_val (e : SEnv K) (e' : Env F) (he : SameEnv e e') (k : Nat) (m : SMem K) (c : Cmd) (hc : constTime c = true)
    (h : ArgsOk ρ k c) (m' : Mem F) (o : Out) (hx : exec e' (valMem ρ m) c = some (m', o)) :
    ∃ sm so, sexec e k m (verdict c o) (shape c) = some (sm, so) ∧ valMem ρ sm = m' ∧ valOut ρ so = o := by
  have h256 (l : List U8) : evB ρ (e.sha256 l) = e'.sha256 (l.map (ev ρ)) := he.sha256 ρ l
  have h512 (l : List U8) : evB ρ (e.sha512 l) = e'.sha512 (l.map (ev ρ)) := he.sha512 ρ l
  have hbase : evTable ρ e.baseTab = e'.baseTab := he.baseTab ρ
  have hflag : ev ρ (Obl.argFlag k) = argBit c := h.flag
  have hnum : ev ρ (argWord k) = argNum c := h.num
  cases c
  case pSetBytes p b =>
    simp only [exec, Option.some.injEq, Prod.mk.injEq] at hx
    obtain ⟨rfl, rfl⟩ := hx
    refine ⟨_, _, rfl, ?_, ?_⟩
    · rw [setPt_val, (setRistrettoI_ev ρ _).1, array_val ρ h b rfl]
      rfl
    · simp only [valOut, (setRistrettoI_ev ρ _).2, array_val ρ h b rfl]
      rfl
  case pSetElligator p b =>
    simp only [exec, Option.some.injEq, Prod.mk.injEq] at hx
    obtain ⟨rfl, rfl⟩ := hx
    exact ⟨_, _, rfl, by rw [setPt_val, setElligator_ev, array_val ρ h b rfl], rfl⟩
  case pRand p b =>
    simp only [exec, Option.some.injEq, Prod.mk.injEq] at hx
    obtain ⟨rfl, rfl⟩ := hx
    exact ⟨_, _, rfl, by rw [setPt_val, setElligator_ev, array_val ρ h b rfl]; rfl, rfl⟩
  case pDerive p l =>
    simp only [exec, Option.some.injEq, Prod.mk.injEq] at hx
    obtain ⟨rfl, rfl⟩ := hx
    refine ⟨_, _, rfl, ?_, rfl⟩
    rw [setPt_val, setElligator_ev, slice_ev, h512, List.length_replicate, slice_val ρ h l rfl]
    rfl
  case pDeriveDalek p l =>
    simp only [exec, Option.some.injEq, Prod.mk.injEq] at hx
    obtain ⟨rfl, rfl⟩ := hx
    refine ⟨_, _, rfl, ?_, rfl⟩
    rw [setPt_val, add_ev, setElligator_ev, setElligator_ev, slice_ev, slice_ev, h512, List.length_replicate,
      slice_val ρ h l rfl]
    rfl
  case pSetLizard p b =>
    simp only [exec, Option.some.injEq, Prod.mk.injEq] at hx
    obtain ⟨rfl, rfl⟩ := hx
    exact ⟨_, _, rfl, by rw [setPt_val, setLizard_ev ρ e.sha256 e'.sha256 h256, array_val ρ h b rfl], rfl⟩
  case pLizardInto p b =>
    have hl := lizardInto_ev ρ e.sha256 e'.sha256 h256 (m.pts p) (argArray k 16)
    rw [array_val ρ h b rfl] at hl
    have hl1 : evB ρ (Obl.lizardInto e.sha256 (m.pts p) (argArray k 16)).1 = _ := congrArg Prod.fst hl
    have hl2 : ev ρ (Obl.lizardInto e.sha256 (m.pts p) (argArray k 16)).2 = _ := congrArg Prod.snd hl
    simp only [exec, Option.some.injEq, Prod.mk.injEq, Point.lizardInto, pts_val] at hx
    obtain ⟨rfl, rfl⟩ := hx
    refine ⟨_, _, rfl, ?_, ?_⟩
    · rw [setPt_val, recv_val]
    · simp only [valOut, hl2]
      rw [show Vector.map (ev ρ) (Obl.lizardInto e.sha256 (m.pts p) (argArray k 16)).1 = _ from hl1]
      split
      · rfl
      · split <;> rfl
  case pCondSet p q b =>
    simp only [exec, Option.some.injEq, Prod.mk.injEq] at hx
    obtain ⟨rfl, rfl⟩ := hx
    exact ⟨_, _, rfl, by rw [setPt_val, ptCondSet_ev, hflag]; rfl, rfl⟩
  case sCondSet p q b =>
    simp only [exec, Option.some.injEq, Prod.mk.injEq] at hx
    obtain ⟨rfl, rfl⟩ := hx
    exact ⟨_, _, rfl, by rw [setSc_val, sCondSet_ev, hflag]; rfl, rfl⟩
  case pUnmarshalBinary p l =>
    simp only [exec, Option.some.injEq, Prod.mk.injEq, Point.unmarshalBinary] at hx
    obtain ⟨rfl, rfl⟩ := hx
    by_cases hl : l.length = 32
    · refine ⟨m.setPt p (setRistrettoI (K := K) (toArray32 (argSlice k (List.replicate l.length (0 : UInt8)).length))).1,
        .isZero (setRistrettoI (K := K) (toArray32 (argSlice k (List.replicate l.length (0 : UInt8)).length))).2,
        if_neg (by simp [hl]), ?_, ?_⟩
      · rw [setPt_val, (setRistrettoI_ev ρ _).1, toArray32_val, List.length_replicate, slice_val ρ h l rfl, if_neg (by simpa using hl)]
        rfl
      · simp only [valOut, (setRistrettoI_ev ρ _).2, toArray32_val]
        rw [List.length_replicate, slice_val ρ h l rfl, if_neg (by simpa using hl)]
        rfl
    · refine ⟨m, .bool false, by simp only [shape, sexec, List.length_replicate, hl, ne_eq, not_false_iff, if_true], ?_, ?_⟩
      · rw [if_pos hl, pts_val, ← setPt_val]
        simp only [valMem, SMem.setPt, Mem.mk.injEq, and_true]
        funext j
        split
        · rename_i hj; rw [hj]
        · rfl
      · rw [if_pos hl]; rfl
  case sSetBytes s b =>
    simp only [exec, Option.some.injEq, Prod.mk.injEq] at hx
    obtain ⟨rfl, rfl⟩ := hx
    exact ⟨_, _, rfl, by rw [setSc_val, sSetBytes_ev, array_val ρ h b rfl], rfl⟩
  case sSetBytesStrict s b =>
    have h1 : evS ρ (Sc.words (argArray k 32)) = Scalar.words b := by rw [words_ev, array_val ρ h b rfl]
    have h2 : evS ρ (Sc.sub (Sc.words (argArray k 32)) Obl.scL) = Scalar.sub (Scalar.words b) Model.scL := by
      rw [sSub_ev, h1, scL_ev]
    simp only [exec, Option.some.injEq, Prod.mk.injEq, Scalar.setBytesStrict] at hx
    obtain ⟨rfl, rfl⟩ := hx
    by_cases hb : Scalar.sub (Scalar.words b) Model.scL = Scalar.words b
    · refine ⟨m.setSc s (Sc.words (argArray k 32)), .same (Sc.sub (Sc.words (argArray k 32)) Obl.scL) (Sc.words (argArray k 32)), ?_, ?_, ?_⟩
      · simp only [shape, sexec, verdict, hb, ne_eq, not_true, if_false, if_true]
      · rw [setSc_val, h1, if_neg (by simpa using hb)]
      · simp only [valOut]
        rw [show Vector.map (ev ρ) (Sc.sub (Sc.words (argArray k 32)) Obl.scL) = _ from h2,
          show Vector.map (ev ρ) (Sc.words (argArray k 32)) = _ from h1, if_neg (by simpa using hb)]
        simp [hb]
    · refine ⟨m, .same (Sc.sub (Sc.words (argArray k 32)) Obl.scL) (Sc.words (argArray k 32)), ?_, ?_, ?_⟩
      · simp [shape, sexec, verdict, hb]
      · rw [if_pos hb, scs_val, ← setSc_val]
        simp only [valMem, SMem.setSc, Mem.mk.injEq, and_true, true_and]
        funext j
        split
        · rename_i hj; rw [hj]
        · rfl
      · simp only [valOut]
        rw [show Vector.map (ev ρ) (Sc.sub (Sc.words (argArray k 32)) Obl.scL) = _ from h2,
          show Vector.map (ev ρ) (Sc.words (argArray k 32)) = _ from h1, if_pos hb]
        simp [hb]
  case sSetReduced s b =>
    simp only [exec, Option.some.injEq, Prod.mk.injEq] at hx
    obtain ⟨rfl, rfl⟩ := hx
    exact ⟨_, _, rfl, by rw [setSc_val, setReduced_ev, array_val ρ h b rfl], rfl⟩
  case sRand s b =>
    simp only [exec, Option.some.injEq, Prod.mk.injEq] at hx
    obtain ⟨rfl, rfl⟩ := hx
    exact ⟨_, _, rfl, by rw [setSc_val, setReduced_ev, array_val ρ h b rfl]; rfl, rfl⟩
  case sDerive s l =>
    simp only [exec, Option.some.injEq, Prod.mk.injEq] at hx
    obtain ⟨rfl, rfl⟩ := hx
    refine ⟨_, _, rfl, ?_, rfl⟩
    rw [setSc_val, setReduced_ev, h512, List.length_replicate, slice_val ρ h l rfl]
    rfl
  case sDeriveShort s l =>
    simp only [exec, Option.some.injEq, Prod.mk.injEq] at hx
    obtain ⟨rfl, rfl⟩ := hx
    refine ⟨_, _, rfl, ?_, rfl⟩
    rw [setSc_val, deriveShort_ev, h512, List.length_replicate, slice_val ρ h l rfl]
  case sSetUint64 s x =>
    simp only [exec, Option.some.injEq, Prod.mk.injEq] at hx
    obtain ⟨rfl, rfl⟩ := hx
    exact ⟨_, _, rfl, by rw [setSc_val, setUint64_ev, hnum]; rfl, rfl⟩
  case sUnmarshalBinary s l =>
    simp only [exec, Option.some.injEq, Prod.mk.injEq, Scalar.unmarshalBinary] at hx
    obtain ⟨rfl, rfl⟩ := hx
    by_cases hl : l.length = 32
    · refine ⟨m.setSc s (Sc.setBytes (toArray32 (argSlice k (List.replicate l.length (0 : UInt8)).length))), .bool true, by
        simp only [shape, sexec, List.length_replicate, hl, if_true], ?_, ?_⟩
      · rw [setSc_val, sSetBytes_ev, toArray32_val, List.length_replicate, slice_val ρ h l rfl, dif_pos hl, toBytes32 l hl]
      · rw [dif_pos hl]; rfl
    · refine ⟨m, .bool false, by simp only [shape, sexec, List.length_replicate, hl, if_false], ?_, ?_⟩
      · rw [dif_neg hl, scs_val, ← setSc_val]
        simp only [valMem, SMem.setSc, Mem.mk.injEq, and_true, true_and]
        funext j
        split
        · rename_i hj; rw [hj]
        · rfl
      · rw [dif_neg hl]; rfl
  case pBytes p =>
    simp only [exec, Option.some.injEq, Prod.mk.injEq] at hx
    obtain ⟨rfl, rfl⟩ := hx
    refine ⟨_, _, rfl, rfl, ?_⟩
    simp only [valOut, Point.marshalBinary, pts_val, ← ristretto_ev, evB, Vector.toList_map]
  case sBytes p =>
    simp only [exec, Option.some.injEq, Prod.mk.injEq] at hx
    obtain ⟨rfl, rfl⟩ := hx
    refine ⟨_, _, rfl, rfl, ?_⟩
    simp only [valOut, Scalar.marshalBinary, scs_val, ← sBytes_ev, evB, Vector.toList_map]
  case sOne s =>
    simp only [exec, Option.some.injEq, Prod.mk.injEq] at hx
    obtain ⟨rfl, rfl⟩ := hx
    exact ⟨_, _, rfl, by rw [setSc_val]; exact congrArg _ (const_val ρ scOne), rfl⟩
  all_goals first
    | (exfalso; revert hc; simp only [constTime]; decide)
    | (simp only [exec, Option.some.injEq, Prod.mk.injEq] at hx
       obtain ⟨rfl, rfl⟩ := hx
       refine ⟨_, _, rfl, ?_, ?_⟩
       · simp only [setPt_val, setSc_val, setTab_val, pts_val, scs_val, tabs_val, zero_ev, base_ev, add_ev, sub_ev, double_ev,
           ptNeg_ev, pointScalarMult_ev, scalarMultTable_ev, hbase, tableCompute_ev, scZero_ev, const_val, sAdd_ev, sSub_ev,
           sNeg_ev, sMul_ev, sSquare_ev, sMulAdd_ev, sMulSub_ev, inverse_ev]
       · simp only [valOut, pts_val, scs_val, ristrettoEqualsI_ev, Point.equals, sIsNonZeroI_ev, sEqualsI_ev, Scalar.equals,
           sSub_ev])

/-- Programs. -/
theorem srun_val (e : SEnv K) (e' : Env F) (he : SameEnv e e') (prog : List Cmd) (hc : ∀ c ∈ prog, constTime c = true) (k : Nat) (m : SMem K)
    (h : ∀ i c, prog[i]? = some c → ArgsOk ρ (k + i) c) (m' : Mem F) (os : List Out)
    (hx : run e' (valMem ρ m) prog = some (m', os)) :
    ∃ sm sos, srun e k m (prog.map shape) (verdicts prog os) = some (sm, sos) ∧ valMem ρ sm = m' ∧ sos.map (valOut ρ) = os := by
  induction prog generalizing k m os with
  | nil =>
    simp only [run, Option.some.injEq, Prod.mk.injEq] at hx
    obtain ⟨rfl, rfl⟩ := hx
    exact ⟨m, [], rfl, rfl, rfl⟩
  | cons c cs ih =>
    simp only [run, Option.bind_eq_bind, Option.bind_eq_some_iff] at hx
    obtain ⟨⟨m1, o⟩, h1, ⟨m2, os'⟩, h2, h3⟩ := hx
    simp only [Option.some.injEq, Prod.mk.injEq] at h3
    obtain ⟨rfl, rfl⟩ := h3
    obtain ⟨sm, so, hs1, hs2, hs3⟩ := sexec_val ρ e e' he k m c (hc c (by simp)) (h 0 c rfl) m1 o h1
    rw [← hs2] at h2
    obtain ⟨sm', sos, ht1, ht2, ht3⟩ := ih (fun c' h' => hc c' (by simp [h'])) (k + 1) sm
      (fun i c' hi => by have := h (i + 1) c' (by simpa using hi); rwa [show k + 1 + i = k + (i + 1) by omega]) os' h2
    refine ⟨sm', so :: sos, ?_, ht2, by rw [List.map_cons, hs3, ht3]⟩
    simp only [verdicts] at ht1
    simp only [List.map_cons, verdicts, List.zipWith_cons_cons, srun, hs1, ht1, Option.bind_eq_bind, Option.bind_some]

/-- At the start the memory is the given one. -/
theorem init_val (m : Mem F) (prog : List Cmd) (hm : ∀ t, TabShape (m.tabs t)) : valMem (Ristretto.words K m prog) (SMem.init : SMem K) = m := by
  obtain ⟨pts, scs, tabs⟩ := m
  simp only [valMem, SMem.init, Mem.mk.injEq]
  refine ⟨?_, ?_, ?_⟩
  · funext p
    have h (c : ℕ) : Sym.val (Ristretto.words K ⟨pts, scs, tabs⟩ prog) (SymOps.vars (Name.pt p c) : K) = coord (pts p) c :=
      LawfulSym.vars _ _ _ (fun t l => by cases t <;> rfl)
    simp only [valPt, h]
    rfl
  · funext s
    apply Vector.ext
    intro i hi
    simp only [Vector.getElem_map, Vector.getElem_ofFn]
    show (scs s).toList.getD i 0 = _
    rw [List.getD_eq_getElem?_getD, List.getElem?_eq_getElem (by simpa using hi)]
    simp
  · funext t
    have ht := hm t
    simp only [TabShape] at ht
    have hlen : (tabs t).length = 32 := by simpa using congrArg List.length ht
    apply List.ext_getElem
    · simp [hlen]
    · intro i h1 h2
      have hi : ((tabs t)[i]).length = 8 := by
        have := congrArg (fun l => l[i]?) ht
        simp only [List.getElem?_map, List.getElem?_eq_getElem h2, Option.map_some] at this
        rw [List.getElem?_replicate, if_pos (by omega)] at this
        simpa using this
      simp only [List.getElem_map, List.getElem_range]
      apply List.ext_getElem
      · simp [hi]
      · intro j h3 h4
        simp only [List.getElem_map, List.getElem_range]
        have hg : (((tabs t).getD i []).getD j NielsPt.zero) = (tabs t)[i][j] := by
          simp [List.getD_eq_getElem?_getD, h2, h4]
        rw [← hg]
        have h (c : ℕ) : Sym.val (Ristretto.words K ⟨pts, scs, tabs⟩ prog) (SymOps.vars (Name.tab t i j c) : K) =
            ncoord (((tabs t).getD i []).getD j NielsPt.zero) c := LawfulSym.vars _ _ _ (fun t l => by cases t <;> rfl)
        simp only [valNp, h]
        rfl

/-- And the arguments are the given ones. -/
theorem args_ok (m : Mem F) (prog : List Cmd) (i : Nat) (c : Cmd) (h : prog[i]? = some c) : ArgsOk (Ristretto.words K m prog) i c := by
  have hg : prog.getD i (.pZero 0) = c := by rw [List.getD_eq_getElem?_getD, h]; rfl
  constructor
  · intro j
    show (argBytes (prog.getD i (.pZero 0))).getD j 0 = _
    rw [hg]
  · show argBit (prog.getD i (.pZero 0)) = _
    rw [hg]
  · show argNum (prog.getD i (.pZero 0)) = _
    rw [hg]

/-- Programs on the given memory with the given arguments. -/
theorem programs_val (e : SEnv K) (e' : Env F) (he : SameEnv e e') (m m' : Mem F) (prog : List Cmd) (outs : List Out)
    (hm : ∀ t, TabShape (m.tabs t)) (hc : ∀ c ∈ prog, constTime c = true) (hx : run e' m prog = some (m', outs)) :
    ∃ sm souts, srun e 0 SMem.init (prog.map shape) (verdicts prog outs) = some (sm, souts) ∧
      valMem (Ristretto.words K m prog) sm = m' ∧ souts.map (valOut (Ristretto.words K m prog)) = outs := by
  have h0 := init_val (K := K) m prog hm
  exact srun_val _ e e' he prog hc 0 SMem.init
    (fun i c hi => by rw [Nat.zero_add]; exact args_ok (K := K) m prog i c hi) m' outs (by rw [h0]; exact hx)

/-- One list of expressions for all of them. -/
theorem uniform_val (e : SEnv K) (e' : Env F) (he : SameEnv e e') (cs : List Cmd) (vs : List (Option Out)) :
    ∃ (sm : SMem K) (souts : List SOut), ∀ (m m' : Mem F) (prog : List Cmd) (outs : List Out), (∀ t, TabShape (m.tabs t)) →
      (∀ c ∈ prog, constTime c = true) → prog.map shape = cs → run e' m prog = some (m', outs) → verdicts prog outs = vs →
      m' = valMem (Ristretto.words K m prog) sm ∧ outs = souts.map (valOut (Ristretto.words K m prog)) := by
  refine ⟨((srun e 0 SMem.init cs vs).getD (SMem.init, [])).1, ((srun e 0 SMem.init cs vs).getD (SMem.init, [])).2, ?_⟩
  intro m m' prog outs hm hc hs hx hv
  obtain ⟨sm, souts, h1, h2, h3⟩ := programs_val e e' he m m' prog outs hm hc hx
  rw [hs, hv] at h1
  rw [h1]
  exact ⟨h2.symm, h3.symm⟩

/-- The X coordinate of the point at the start. -/
theorem field_val (p : ExtPt F) :
    Sym.val (Ristretto.words K { pts := fun _ => p, scs := fun _ => scZero, tabs := fun _ => [] } [])
      (Obl.feAbs ((SMem.init : SMem K).pts 0).X) = Model.feAbs p.X ∧
    Sym.val (Ristretto.words K { pts := fun _ => p, scs := fun _ => scZero, tabs := fun _ => [] } [])
      (Obl.feSqrt ((SMem.init : SMem K).pts 0).X) = Model.feSqrt p.X ∧
    Sym.val (Ristretto.words K { pts := fun _ => p, scs := fun _ => scZero, tabs := fun _ => [] } [])
      (feInverse ((SMem.init : SMem K).pts 0).X) = feInverse p.X := by
  have h : evFe (Ristretto.words K { pts := fun _ => p, scs := fun _ => scZero, tabs := fun _ => [] } [])
      ((SMem.init : SMem K).pts 0).X = p.X :=
    LawfulSym.vars _ _ (coord p 0) (fun t l => by cases t <;> rfl)
  refine ⟨?_, ?_, ?_⟩
  · exact (feAbs_ev _ _).trans (by rw [h])
  · exact (feSqrt_ev _ _).trans (by rw [h])
  · exact (feInverse_ev _ _).trans (by rw [h])

/-- The point and the scalar variables at the start. -/
theorem scalarMult_val (p : ExtPt F) (s : Scalar) :
    valPt (Ristretto.words K { pts := fun _ => p, scs := fun _ => s, tabs := fun _ => [] } [])
      (Obl.pointScalarMult ((SMem.init : SMem K).pts 0) ((SMem.init : SMem K).scs 0)) = Point.scalarMult p s := by
  rw [valPt_eq, pointScalarMult_ev]
  congr 1
  · have h (c : ℕ) : evFe (Ristretto.words K { pts := fun _ => p, scs := fun _ => s, tabs := fun _ => [] } []) (SymOps.vars (Name.pt 0 c) : K) =
        coord p c := LawfulSym.vars _ _ _ (fun t l => by cases t <;> rfl)
    simp only [SMem.init, evPt, h]
    rfl
  · apply Vector.ext
    intro i hi
    simp only [SMem.init, evS, Vector.getElem_map, Vector.getElem_ofFn]
    show s.toList.getD i 0 = _
    rw [List.getD_eq_getElem?_getD, List.getElem?_eq_getElem (by simpa using hi)]
    simp

end Ristretto.Proofs.Obl
