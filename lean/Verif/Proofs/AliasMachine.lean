import Verif.Proofs.Alias

set_option autoImplicit false

namespace Ristretto.Proofs.Alias
open Ristretto Ristretto.Model Ristretto.Model.Alias

/-! ## Scalars -/

/-- Update of one scalar. -/
def supd (m : SMem) (s : Base) (v : Scalar) : SMem := fun x => if x = s then v else m x

theorem srd_swr_ne (m : SMem) (a b : Base) (i j : Nat) (v : UInt32) (hij : j ≠ i) :
    srd (swr m a i v) b j = srd m b j := by
  unfold srd swr
  split
  · simp [List.getD_eq_getElem?_getD, Vector.toList_setIfInBounds, List.getElem?_set, Ne.symm hij]
  · rfl

theorem swr8 (m : SMem) (s : Base) (v0 v1 v2 v3 v4 v5 v6 v7 : UInt32) :
    swr (swr (swr (swr (swr (swr (swr (swr m s 0 v0) s 1 v1) s 2 v2) s 3 v3) s 4 v4) s 5 v5) s 6 v6)
      s 7 v7 = supd m s #v[v0, v1, v2, v3, v4, v5, v6, v7] := by
  funext x
  unfold swr supd
  by_cases h : x = s
  · simp only [h, if_true]
    ext i hi
    rcases i with _ | _ | _ | _ | _ | _ | _ | _ | i <;> first | omega | simp
  · simp only [h, if_false]

theorem vec8 (v : Scalar) : #v[v[0], v[1], v[2], v[3], v[4], v[5], v[6], v[7]] = v := by
  ext i hi
  rcases i with _ | _ | _ | _ | _ | _ | _ | _ | i <;> first | rfl | omega

theorem sstore_eq (s : Base) (v : Scalar) (m : SMem) : sstore s v m = supd m s v := by
  unfold sstore
  simp only
  rw [swr8, vec8]

theorem srd_eq (m : SMem) (a : Base) : srd m a 0 = (m a)[0] ∧ srd m a 1 = (m a)[1] ∧
    srd m a 2 = (m a)[2] ∧ srd m a 3 = (m a)[3] ∧ srd m a 4 = (m a)[4] ∧ srd m a 5 = (m a)[5] ∧
    srd m a 6 = (m a)[6] ∧ srd m a 7 = (m a)[7] := by
  unfold srd
  refine ⟨?_, ?_, ?_, ?_, ?_, ?_, ?_, ?_⟩ <;> simp [List.getD_eq_getElem?_getD]

theorem sAddI_eq (s a b : Base) (m : SMem) : sAddI s a b m = supd m s (Scalar.add (m a) (m b)) := by
  unfold sAddI
  simp (discharger := decide) only [srd_swr_ne]
  rw [swr8, sstore_eq]
  obtain ⟨a0, a1, a2, a3, a4, a5, a6, a7⟩ := srd_eq m a
  obtain ⟨b0, b1, b2, b3, b4, b5, b6, b7⟩ := srd_eq m b
  rw [a0, a1, a2, a3, a4, a5, a6, a7, b0, b1, b2, b3, b4, b5, b6, b7]
  funext x
  unfold supd
  by_cases h : x = s
  · simp only [h, if_true]; rfl
  · simp only [h, if_false]

theorem sCondSetI_eq (s t : Base) (c : Int32) (m : SMem) :
    sCondSetI s t c m = supd m s (Scalar.condSet (m s) (m t) c) := by
  unfold sCondSetI
  simp (discharger := decide) only [srd_swr_ne]
  rw [swr8]
  obtain ⟨a0, a1, a2, a3, a4, a5, a6, a7⟩ := srd_eq m s
  obtain ⟨b0, b1, b2, b3, b4, b5, b6, b7⟩ := srd_eq m t
  rw [a0, a1, a2, a3, a4, a5, a6, a7, b0, b1, b2, b3, b4, b5, b6, b7]
  rfl

theorem repeat_comm {α : Type} (f : α → α) : ∀ (k : Nat) (y : α),
    Nat.repeat f k (f y) = f (Nat.repeat f k y)
  | 0, _ => rfl
  | k + 1, y => by simp only [Nat.repeat]; rw [repeat_comm f k]

theorem sqLoopI_spec : ∀ (n : Nat) (m : SMem),
    sqLoopI n m (.loc 0) = Nat.repeat Scalar.square n (m (.loc 0)) ∧
      ∀ b, b ≠ .loc 0 → sqLoopI n m b = m b
  | 0, m => ⟨rfl, fun _ _ => rfl⟩
  | n + 1, m => by
    obtain ⟨r1, r2⟩ := sqLoopI_spec n (supd m (.loc 0) (Scalar.square (m (.loc 0))))
    have hsq : sSquareI (.loc 0) (.loc 0) m = supd m (.loc 0) (Scalar.square (m (.loc 0))) :=
      sstore_eq _ _ _
    rw [sqLoopI, hsq]
    constructor
    · rw [r1]
      unfold supd
      rw [if_pos rfl, repeat_comm]; rfl
    · intro b hb
      rw [r2 b hb]; unfold supd; rw [if_neg hb]

/-- The registers `D` of `Inverse` hold what the functional model says. -/
def InvRel (t : Base) (D : List Nat) (m : SMem) (r : Nat → Scalar) : Prop :=
  ∀ k, k ∈ D → m (invReg t k) = r k

/-- A straight-line program uses registers only after they have been written (`D` have been), never
writes register 6 (the argument), and writes registers 0 and 3. -/
def InvOk : List Nat → List Scalar.InvOp → Bool
  | D, [] => D.contains 0 && D.contains 3
  | D, .sq d s :: l => d < 6 && D.contains s && InvOk (d :: D) l
  | D, .mul d a b :: l => d < 6 && D.contains a && D.contains b && InvOk (d :: D) l

theorem invReg_inj (n : Nat) {j k : Nat} (h : invReg (.var n) j = invReg (.var n) k) : j = k := by
  unfold invReg at h
  split at h <;> split at h <;> simp_all

theorem invKey (n : Nat) (D : List Nat) (m : SMem) (r : Nat → Scalar) (h : InvRel (.var n) D m r)
    (d : Nat) (v : Scalar) (hd : d < 6) :
    InvRel (.var n) (d :: D) (supd m (invReg (.var n) d) v) (Scalar.setReg r d v) ∧
      ∀ b, supd m (invReg (.var n) d) v (.var b) = m (.var b) := by
  constructor
  · intro k hk
    unfold supd Scalar.setReg
    by_cases hkd : k = d
    · subst hkd; simp
    · rw [if_neg hkd, if_neg (fun e => hkd (invReg_inj n e))]
      exact h k ((List.mem_cons.1 hk).resolve_left hkd)
  · intro b
    unfold supd invReg
    rw [if_neg (show ¬ d = 6 by omega), if_neg (by simp)]

theorem invProg_sim (n : Nat) : ∀ (l : List Scalar.InvOp) (D : List Nat) (m : SMem)
    (r : Nat → Scalar), InvOk D l = true → InvRel (.var n) D m r →
    InvRel (.var n) [0, 3] (l.foldl (invOpI (.var n)) m)
        (l.foldl (fun r o => o.exec Scalar.mul Scalar.square r) r) ∧
      ∀ b, l.foldl (invOpI (.var n)) m (.var b) = m (.var b)
  | [], D, m, r, hl, h => by
    simp only [InvOk, Bool.and_eq_true, List.contains_iff_mem] at hl
    refine ⟨fun k hk => h k ?_, fun _ => rfl⟩
    simp only [List.mem_cons, List.not_mem_nil, or_false] at hk
    rcases hk with rfl | rfl
    · exact hl.1
    · exact hl.2
  | .sq d s :: l, D, m, r, hl, h => by
    simp only [InvOk, Bool.and_eq_true, decide_eq_true_eq, List.contains_iff_mem] at hl
    obtain ⟨k1, k2⟩ := invKey n D m r h d (Scalar.square (r s)) hl.1.1
    have e : invOpI (.var n) m (.sq d s) = supd m (invReg (.var n) d) (Scalar.square (r s)) := by
      rw [← h s hl.1.2]; exact sstore_eq _ _ _
    rw [← e] at k1 k2
    obtain ⟨r1, r2⟩ := invProg_sim n l _ _ _ hl.2 k1
    exact ⟨r1, fun b => (r2 b).trans (k2 b)⟩
  | .mul d a b :: l, D, m, r, hl, h => by
    simp only [InvOk, Bool.and_eq_true, decide_eq_true_eq, List.contains_iff_mem] at hl
    obtain ⟨k1, k2⟩ := invKey n D m r h d (Scalar.mul (r a) (r b)) hl.1.1.1
    have e : invOpI (.var n) m (.mul d a b) =
        supd m (invReg (.var n) d) (Scalar.mul (r a) (r b)) := by
      rw [← h a hl.1.1.2, ← h b hl.1.2]; exact sstore_eq _ _ _
    rw [← e] at k1 k2
    obtain ⟨r1, r2⟩ := invProg_sim n l _ _ _ hl.2 k1
    exact ⟨r1, fun b => (r2 b).trans (k2 b)⟩

theorem invProg_ok : InvOk [6] Scalar.invProg = true := by decide +kernel

theorem sInverseI_spec (s t : Nat) (m : SMem) :
    sInverseI (.var s) (.var t) m (.var s) = Scalar.inverse (m (.var t)) ∧
      ∀ b, b ≠ s → sInverseI (.var s) (.var t) m (.var b) = m (.var b) := by
  obtain ⟨h1, h2⟩ := invProg_sim t Scalar.invProg [6] m
    (fun k => if k = 6 then m (.var t) else scZero) invProg_ok (by
      intro k hk
      simp only [List.mem_cons, List.not_mem_nil, or_false] at hk
      subst hk; rfl)
  obtain ⟨q1, q2⟩ := sqLoopI_spec 126 (Scalar.invProg.foldl (invOpI (.var t)) m)
  have h0 := h1 0 (by simp)
  have h3 := h1 3 (by simp)
  have e0 : invReg (.var t) 0 = .loc 0 := rfl
  have e3 : invReg (.var t) 3 = .loc 3 := rfl
  rw [e0] at h0
  rw [e3] at h3
  have e : sInverseI (.var s) (.var t) m = supd (sqLoopI 126 (Scalar.invProg.foldl (invOpI (.var t)) m))
      (.var s) (Scalar.inverse (m (.var t))) := by
    unfold sInverseI Scalar.inverse
    simp only
    unfold sMulI
    rw [sstore_eq, q1, q2 (.loc 3) (by simp), h0, h3]
  rw [e]
  refine ⟨by simp [supd], fun b hb => ?_⟩
  unfold supd
  rw [if_neg (by simpa using hb), q2 _ (by simp), h2]

/-! ## Programs -/

attribute [local irreducible] ExtPt.double ExtPt.add ExtPt.sub ExtPt.neg ExtPt.zero ExtPt.condSet
  ptAddI ptSubI ptDoubleI ptSetI ptNegI ptZeroI ptCondSetI scalarMultI varTimeScalarMultI
  Model.scalarMult varTimeScalarMult Scalar.inverse sInverseI Scalar.add Scalar.sub Scalar.mul
  Scalar.square Scalar.mulAdd Scalar.mulSub Scalar.condSet sAddI sCondSetI

theorem store_view (m : PMem) (v : Mem Fe51) : (m.store v).view = v := by
  cases v
  rfl

theorem view_pt (m : PMem) (fe : FMem) (p : Nat) (v : ExtPt Fe51) (h : pt fe (.var p) = v)
    (h' : ∀ b, b ≠ p → Same m.fe fe (.var b)) :
    ({ m with fe := fe } : PMem).view = m.view.setPt p v := by
  unfold PMem.view Mem.setPt
  simp only [Mem.mk.injEq, and_true]
  funext n
  by_cases hn : n = p
  · subst hn; simp only [h, if_true]
  · simp only [hn, if_false]; exact (h' n hn).pt

theorem view_sc (m : PMem) (sc : SMem) (s : Nat) (v : Scalar) (h : sc (.var s) = v)
    (h' : ∀ b, b ≠ s → sc (.var b) = m.sc (.var b)) :
    ({ m with sc := sc } : PMem).view = m.view.setSc s v := by
  unfold PMem.view Mem.setSc
  simp only [Mem.mk.injEq, and_true, true_and]
  funext n
  by_cases hn : n = s
  · subst hn; simp only [h, if_true]
  · simp only [hn, if_false]; exact h' n hn

theorem view_supd (m : PMem) (sc : SMem) (s : Nat) (v : Scalar) (h : sc = supd m.sc (.var s) v) :
    ({ m with sc := sc } : PMem).view = m.view.setSc s v := by
  subst h
  refine view_sc m _ s v (by simp [supd]) (fun b hb => ?_)
  unfold supd
  rw [if_neg (by simpa using hb)]

theorem execI_view (e : Env Fe51) (m : PMem) (c : Cmd) :
    (execI e m c).map (fun r => (r.1.view, r.2)) = exec e m.view c := by
  cases c with
  | pZero p =>
    unfold execI exec
    simp only [Option.map_some]
    rw [view_pt m _ p _ (ptZeroI_spec _ _).1 (fun b hb => (ptZeroI_spec _ _).2 _ (by simpa using hb))]
  | pSet p q =>
    unfold execI exec
    simp only [Option.map_some]
    rw [view_pt m _ p _ (ptSetI_spec _ _ _).1 (fun b hb => (ptSetI_spec _ _ _).2 _ (by simpa using hb))]
    rfl
  | pNeg p q =>
    unfold execI exec
    simp only [Option.map_some]
    rw [view_pt m _ p _ (ptNegI_spec _ _ _).1 (fun b hb => (ptNegI_spec _ _ _).2 _ (by simpa using hb))]
    rfl
  | pCondSet p q b =>
    unfold execI exec
    simp only [Option.map_some]
    rw [view_pt m _ p _ (ptCondSetI_spec _ _ _ _).1
      (fun b hb => (ptCondSetI_spec _ _ _ _).2 _ (by simpa using hb))]
    rfl
  | pAdd p q r =>
    unfold execI exec
    simp only [Option.map_some]
    obtain ⟨h1, h2⟩ := ptAddI_spec (.var p) (.var q) (.var r) m.fe (free_var _) (free_var _) (free_var _)
    rw [view_pt m _ p _ h1 (fun b hb => h2 _ (by simpa using hb) (free_var _))]
    rfl
  | pSub p q r =>
    unfold execI exec
    simp only [Option.map_some]
    obtain ⟨h1, h2⟩ := ptSubI_spec (.var p) (.var q) (.var r) m.fe (free_var _) (free_var _) (free_var _)
    rw [view_pt m _ p _ h1 (fun b hb => h2 _ (by simpa using hb) (free_var _))]
    rfl
  | pDouble p q =>
    unfold execI exec
    simp only [Option.map_some]
    obtain ⟨h1, h2⟩ := ptDoubleI_spec (.var p) (.var q) m.fe (free_var _) (free_var _)
    rw [view_pt m _ p _ h1 (fun b hb => h2 _ (by simpa using hb) (free_var _))]
    rfl
  | pScalarMult p q s =>
    unfold execI exec
    simp only [Option.map_some]
    obtain ⟨h1, h2⟩ := scalarMultI_spec p q (m.sc (.var s)).bytes m.fe
    rw [view_pt m _ p _ h1 h2]
    rfl
  | pPublicScalarMult p q s =>
    unfold execI exec
    simp only
    obtain ⟨h1, h2⟩ := varTimeScalarMultI_spec p q (m.sc (.var s)).bytes m.fe
    have hv : Point.publicScalarMult (m.view.pts q) (m.view.scs s) =
        varTimeScalarMult (pt m.fe (.var q)) (m.sc (.var s)).bytes := rfl
    rw [hv, ← h1]
    cases hr : varTimeScalarMultI (.var p) (.var q) (m.sc (.var s)).bytes m.fe with
    | none => rfl
    | some fe =>
      simp only [Option.bind_eq_bind, Option.bind_some, Option.map_some]
      rw [view_pt m fe p _ rfl (h2 fe hr)]
  | sSet s a =>
    unfold execI exec
    simp only [Option.map_some]
    rw [view_supd m _ s (m.sc (.var a)) (show sSetI _ _ _ = _ from rfl)]; rfl
  | sAdd s a b =>
    unfold execI exec
    simp only [Option.map_some]
    rw [view_supd m _ s _ (sAddI_eq _ _ _ _)]; rfl
  | sCondSet s a b =>
    unfold execI exec
    simp only [Option.map_some]
    rw [view_supd m _ s _ (sCondSetI_eq _ _ _ _)]; rfl
  | sSub s a b =>
    unfold execI exec sSubI
    simp only [Option.map_some]
    rw [view_supd m _ s _ (sstore_eq _ _ _)]; rfl
  | sNeg s a =>
    unfold execI exec sNegI
    simp only [Option.map_some]
    rw [view_supd m _ s _ (sstore_eq _ _ _)]; rfl
  | sMul s a b =>
    unfold execI exec sMulI
    simp only [Option.map_some]
    rw [view_supd m _ s _ (sstore_eq _ _ _)]; rfl
  | sSquare s a =>
    unfold execI exec sSquareI
    simp only [Option.map_some]
    rw [view_supd m _ s _ (sstore_eq _ _ _)]; rfl
  | sMulAdd s a b c =>
    unfold execI exec sMulAddI
    simp only [Option.map_some]
    rw [view_supd m _ s _ (sstore_eq _ _ _)]; rfl
  | sMulSub s a b c =>
    unfold execI exec sMulSubI
    simp only [Option.map_some]
    rw [view_supd m _ s _ (sstore_eq _ _ _)]; rfl
  | sInverse s a =>
    unfold execI exec
    simp only [Option.map_some]
    obtain ⟨h1, h2⟩ := sInverseI_spec s a m.sc
    rw [view_sc m _ s _ h1 h2]; rfl
  | _ =>
    have : ((fun r : PMem × Out => (r.1.view, r.2)) ∘ fun r : Mem Fe51 × Out => (m.store r.1, r.2)) = id := by
      funext r
      simp only [Function.comp, store_view, id]
    unfold execI
    simp only [Option.map_map]
    rw [this, Option.map_id]
    rfl

theorem runI_view (e : Env Fe51) : ∀ (cs : List Cmd) (m : PMem),
    (runI e m cs).map (fun r => (r.1.view, r.2)) = run e m.view cs
  | [], m => rfl
  | c :: cs, m => by
    rw [runI, run, ← execI_view]
    cases h : execI e m c with
    | none => rfl
    | some r =>
      simp only [Option.bind_eq_bind, Option.bind_some, Option.map_some]
      rw [← runI_view e cs r.1]
      cases runI e r.1 cs <;> rfl

end Ristretto.Proofs.Alias
