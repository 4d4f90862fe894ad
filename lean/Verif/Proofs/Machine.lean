import Verif.Proofs.TextSpec
import Verif.Spec.Machine
import Verif.Proofs.DegLizard

/-!
# The code refines the abstract machine
-/

namespace Ristretto.Proofs
set_option autoImplicit false
open Model FieldOps LawfulField

variable {F : Type} [LawfulField F]

/-- A point variable holds the abstract contents. -/
def PtRel (q : ExtPt F) : Option RGroup → Prop
  | some g => Holds q g
  | none => Deg q

/-- A table holds the abstract contents. -/
def TabRel (t : Table F) : Option RGroup → Prop
  | some g => HoldsT t g
  | none => DegT t

/-- A scalar variable holds the abstract contents: it is the reduced representative. -/
def ScRel (s : Scalar) (x : ZMod l) : Prop := scVal s = x.val

/-- The refinement relation. -/
structure Rel (m : Mem F) (a : AState) : Prop where
  pts : ∀ k, PtRel (m.pts k) (a.pts k)
  scs : ∀ k, ScRel (m.scs k) (a.scs k)
  tabs : ∀ k, TabRel (m.tabs k) (a.tabs k)

/-- Both panic, or both finish in related states with the same output. -/
def Sim : Option (Mem F × Out) → Option (AState × Out) → Prop
  | some (m, o), some (a, o') => Rel m a ∧ o = o'
  | none, none => True
  | _, _ => False

variable {m : Mem F} {a : AState}

theorem Rel.setPt (h : Rel m a) (p : ℕ) {q : ExtPt F} {g : Option RGroup} (hq : PtRel q g) :
    Rel (m.setPt p q) (a.setPt p g) := by
  refine ⟨fun k => ?_, h.scs, h.tabs⟩
  show PtRel (if k = p then q else m.pts k) (if k = p then g else a.pts k)
  split
  · exact hq
  · exact h.pts k

theorem Rel.setSc (h : Rel m a) (s : ℕ) {x : Scalar} {v : ZMod l} (hx : ScRel x v) :
    Rel (m.setSc s x) (a.setSc s v) := by
  refine ⟨h.pts, fun k => ?_, h.tabs⟩
  show ScRel (if k = s then x else m.scs k) (if k = s then v else a.scs k)
  split
  · exact hx
  · exact h.scs k

theorem Rel.setTab (h : Rel m a) (t : ℕ) {x : Table F} {v : Option RGroup} (hx : TabRel x v) :
    Rel (m.setTab t x) (a.setTab t v) := by
  refine ⟨h.pts, h.scs, fun k => ?_⟩
  show TabRel (if k = t then x else m.tabs k) (if k = t then v else a.tabs k)
  split
  · exact hx
  · exact h.tabs k

theorem setPt_self (m : Mem F) (p : ℕ) : m.setPt p (m.pts p) = m := by
  unfold Mem.setPt
  congr
  funext k
  split
  · rename_i h; rw [h]
  · rfl

theorem setSc_self (m : Mem F) (p : ℕ) : m.setSc p (m.scs p) = m := by
  unfold Mem.setSc
  congr
  funext k
  split
  · rename_i h; rw [h]
  · rfl

/-! Scalars -/

theorem ScRel.lt {s : Scalar} {x : ZMod l} (h : ScRel s x) : scVal s < l := h ▸ ZMod.val_lt x

theorem ScRel.cast {s : Scalar} {x : ZMod l} (h : ScRel s x) : (scVal s : ZMod l) = x := by
  rw [h]; exact ZMod.natCast_zmod_val x

theorem scRel_of {s : Scalar} {x : ZMod l} (h1 : scVal s < l) (h2 : (scVal s : ZMod l) = x) : ScRel s x := by
  unfold ScRel
  rw [← h2, ZMod.val_natCast, Nat.mod_eq_of_lt h1]

theorem scRel_of_mod {s : Scalar} {x : ZMod l} {n : ℕ} (h1 : scVal s = n % l) (h2 : (n : ZMod l) = x) :
    ScRel s x :=
  scRel_of (h1 ▸ Nat.mod_lt _ l_prime.pos) (by rw [h1, ZMod.natCast_mod, h2])

theorem scRel_of_emod {s : Scalar} {x : ZMod l} {n : ℤ} (h1 : (scVal s : ℤ) = n % l) (h2 : (n : ZMod l) = x) :
    ScRel s x := by
  have hl : (0 : ℤ) < l := by exact_mod_cast l_prime.pos
  refine scRel_of ?_ ?_
  · have := Int.emod_lt_of_pos n hl
    rw [← h1] at this
    exact_mod_cast this
  · have : ((scVal s : ℤ) : ZMod l) = x := by
      rw [h1, ← h2]
      exact (ZMod.intCast_eq_intCast_iff' _ _ _).2 (Int.emod_emod_of_dvd _ (dvd_refl _))
    exact_mod_cast this

theorem ScRel.bytes {s : Scalar} {x : ZMod l} (h : ScRel s x) : Scalar.bytes s = scBytes x := by
  apply leVal_inj
  rw [show scBytes x = leBytes 32 x.val from rfl]
  rw [bytes_val, leVal_leBytes, h, Nat.mod_eq_of_lt]
  have := ZMod.val_lt x
  have hl := l_eq
  simp only [Nat.reducePow] at *
  omega

theorem ScRel.eq_iff {s t : Scalar} {x y : ZMod l} (h : ScRel s x) (h' : ScRel t y) :
    scVal s = scVal t ↔ x = y := by
  rw [h, h']
  exact (ZMod.val_injective l).eq_iff

theorem ScRel.zero_iff {s : Scalar} {x : ZMod l} (h : ScRel s x) : scVal s = 0 ↔ x = 0 := by
  rw [h]; exact ZMod.val_eq_zero x

/-! Points -/

theorem Holds.small {q : ExtPt F} {g : RGroup} (h : Holds q g) : Small q := h.choose_spec.choose_spec.1.small

theorem PtRel.small {q : ExtPt F} {g : Option RGroup} (h : PtRel q g) : Small q := by
  cases g
  · exact Deg.toSmall h
  · exact Holds.small h

theorem PtRel.add {q r : ExtPt F} {g h : Option RGroup} (hq : PtRel q g) (hr : PtRel r h) :
    PtRel (ExtPt.add q r) (addO g h) := by
  cases g <;> cases h
  · exact Deg.add_left hq hr.small
  · exact Deg.add_left hq hr.small
  · exact Deg.add_right hr hq.small
  · exact Holds.add hq hr

theorem PtRel.sub {q r : ExtPt F} {g h : Option RGroup} (hq : PtRel q g) (hr : PtRel r h) :
    PtRel (ExtPt.sub q r) (subO g h) := by
  cases g <;> cases h
  · exact Deg.sub_left hq hr.small
  · exact Deg.sub_left hq hr.small
  · exact Deg.sub_right hr hq.small
  · exact Holds.sub hq hr

theorem PtRel.neg {q : ExtPt F} {g : Option RGroup} (hq : PtRel q g) : PtRel (ExtPt.neg q) (negO g) := by
  cases g
  · exact Deg.neg hq
  · exact Holds.neg hq

theorem PtRel.double {q : ExtPt F} {g : Option RGroup} (hq : PtRel q g) : PtRel (ExtPt.double q) (dblO g) := by
  cases g
  · exact Deg.double hq
  · rename_i g
    have := Holds.double hq
    rw [← two_nsmul] at this
    exact this

theorem PtRel.compute {q : ExtPt F} {g : Option RGroup} (hq : PtRel q g) : TabRel (tableCompute q) g := by
  cases g
  · exact Deg.compute hq
  · exact Holds.compute hq

theorem ptRel_zp {q : ExtPt F} {s : Scalar} {x : ZMod l} (hs : ScRel s x)
    (h : Zp (leVal s.bytes ≠ 0) q) : PtRel q (smulO x none) := by
  rw [bytes_val] at h
  show PtRel q (if x = 0 then some 0 else none)
  split
  · rename_i h0
    have : IsPt q 0 := h.2 (fun hn => hn (hs.zero_iff.2 h0))
    exact ⟨0, Even.zero_mem, this, rfl⟩
  · rename_i h0
    exact h.1 (fun hn => h0 (hs.zero_iff.1 hn))

theorem ScRel.lt254 {s : Scalar} {x : ZMod l} (h : ScRel s x) : scVal s < 2 ^ 254 := by
  have := h.lt
  have hl := l_eq
  simp only [Nat.reducePow] at *
  omega

theorem ScRel.lt255 {s : Scalar} {x : ZMod l} (h : ScRel s x) : scVal s < 2 ^ 255 := by
  have := h.lt254
  simp only [Nat.reducePow] at *
  omega

theorem PtRel.smul {q : ExtPt F} {g : Option RGroup} (hq : PtRel q g) {s : Scalar} {x : ZMod l} (hs : ScRel s x) :
    PtRel (Point.scalarMult q s) (smulO x g) := by
  cases g
  · exact ptRel_zp hs (scalarMult_deg hq _ (by rw [bytes_val]; exact hs.lt254))
  · have := Holds.smul hq hs.lt254
    rw [hs] at this
    exact this

theorem PtRel.psmul {q : ExtPt F} {g : Option RGroup} (hq : PtRel q g) {s : Scalar} {x : ZMod l} (hs : ScRel s x) :
    ∃ r, Point.publicScalarMult q s = some r ∧ PtRel r (smulO x g) := by
  cases g
  · obtain ⟨r, e, h⟩ := varTimeScalarMult_deg hq s.bytes (by rw [bytes_val]; exact hs.lt255)
    exact ⟨r, e, ptRel_zp hs h⟩
  · obtain ⟨r, e, h⟩ := Holds.psmul hq hs.lt255
    rw [hs] at h
    exact ⟨r, e, h⟩

theorem TabRel.smul {t : Table F} {g : Option RGroup} (hq : TabRel t g) {s : Scalar} {x : ZMod l} (hs : ScRel s x) :
    PtRel (Point.scalarMultTable t s) (smulO x g) := by
  cases g
  · exact ptRel_zp hs (tableScalarMult_deg hq _ (by rw [bytes_val]; exact hs.lt255))
  · have := HoldsT.smul hq hs.lt255
    rw [hs] at this
    exact this

theorem TabRel.psmul {t : Table F} {g : Option RGroup} (hq : TabRel t g) {s : Scalar} {x : ZMod l} (hs : ScRel s x) :
    ∃ r, Point.publicScalarMultTable t s = some r ∧ PtRel r (smulO x g) := by
  cases g
  · obtain ⟨r, e, h⟩ := tableVarTimeScalarMult_deg hq s.bytes (by rw [bytes_val]; exact hs.lt255)
    exact ⟨r, e, ptRel_zp hs h⟩
  · obtain ⟨r, e, h⟩ := HoldsT.psmul hq hs.lt255
    rw [hs] at h
    exact ⟨r, e, h⟩

theorem deg_zero : Deg (⟨feZero, feZero, feZero, feZero⟩ : ExtPt F) :=
  ⟨⟨bd12 bd_feZero, bd12 bd_feZero, bd12 bd_feZero, bd12 bd_feZero⟩, eval_feZero, eval_feZero, eval_feZero⟩

theorem ptRel_setBytes (b : Bytes 32) : PtRel (ExtPt.setRistretto (F := F) b).1 (decode b) ∧
    (ExtPt.setRistretto (F := F) b).2 = (decode b).isSome := by
  cases h : decode b with
  | none => rw [setBytes_none h]; exact ⟨deg_zero, rfl⟩
  | some g => obtain ⟨h1, h2⟩ := setBytes_some (F := F) h; exact ⟨h2, h1⟩

theorem PtRel.bytes {q : ExtPt F} {g : Option RGroup} (hq : PtRel q g) : ExtPt.ristretto q = encO g := by
  cases g
  · exact Deg.ristretto hq
  · exact Holds.bytes hq

open Classical in
theorem PtRel.equalsI {q r : ExtPt F} {g h : Option RGroup} (hq : PtRel q g) (hr : PtRel r h) :
    ExtPt.ristrettoEqualsI q r = if eqO g h then 1 else 0 := by
  cases g <;> cases h
  · exact (equalsI_deg hq.small hr.small (Or.inl ⟨Deg.x hq, Deg.y hq⟩)).trans (if_pos trivial).symm
  · exact (equalsI_deg hq.small hr.small (Or.inl ⟨Deg.x hq, Deg.y hq⟩)).trans (if_pos trivial).symm
  · exact (equalsI_deg hq.small hr.small (Or.inr ⟨Deg.x hr, Deg.y hr⟩)).trans (if_pos trivial).symm
  · rename_i g h
    have := Holds.equalsI (hq : Holds q g) (hr : Holds r h) 
    unfold flag at this
    rw [this]
    exact if_congr Iff.rfl rfl rfl

open Classical in
theorem PtRel.equals {q r : ExtPt F} {g h : Option RGroup} (hq : PtRel q g) (hr : PtRel r h) :
    Point.equals q r = if eqO g h then true else false := by
  unfold Point.equals
  rw [hq.equalsI hr]
  split <;> rfl

/-! Lizard -/

theorem lizard_abs {H : List UInt8 → Bytes 32} (hH : AvoidsNeutral H) {q : ExtPt F} {g : RGroup}
    (hq : Holds q g) (buf : Bytes 16) :
    (Point.lizardInto H q buf).2 = lizardErr H g ∧
    (if (Point.lizardInto H q buf).2 = .multiple then none else some (Point.lizardInto H q buf).1) = lizardBufOf H g buf := by
  classical
  obtain ⟨h1, h2, h3⟩ := lizardInto_exact hH hq buf
  unfold lizardBufOf lizardErr lizardOf
  by_cases hA : ∃ d, ∀ d', lizardMap H d' = g ↔ d' = d
  · have hr := (h1 hA.choose).2 hA.choose_spec
    rw [hr, if_pos hA]
    simp only [dif_pos hA]
    exact ⟨trivial, if_neg (by simp)⟩
  · by_cases hB : ∃ d, lizardMap H d = g
    · have hm : (Point.lizardInto H q buf).2 = .multiple := by
        refine h3.2 ?_
        obtain ⟨d, hd⟩ := hB
        by_contra hn
        push Not at hn
        exact hA ⟨d, fun d' => ⟨fun h => by_contra fun hne => hn d' d hne h hd, fun h => h ▸ hd⟩⟩
      rw [hm, if_neg hA, if_pos hB]
      exact ⟨rfl, if_pos rfl⟩
    · have hr := h2.2 (fun d hd => hB ⟨d, hd⟩)
      rw [hr, if_neg hA, if_neg hB]
      exact ⟨rfl, if_neg (by simp)⟩

theorem PtRel.lizardInto {H : List UInt8 → Bytes 32} (hH : AvoidsNeutral H) {q : ExtPt F} {g : Option RGroup}
    (hq : PtRel q g) (buf : Bytes 16) :
    (Point.lizardInto H q buf).2 = lizardErr H (g.getD 0) ∧
    (if (Point.lizardInto H q buf).2 = .multiple then none else some (Point.lizardInto H q buf).1) =
      lizardBufOf H (g.getD 0) buf := by
  cases g
  · rw [Deg.lizardInto hq]
    exact lizard_abs hH holds_zero buf
  · exact lizard_abs hH hq buf

theorem lizardErr_nil {H : List UInt8 → Bytes 32} {g : RGroup} : lizardErr H g ≠ .nil → lizardOf H g = none := by
  classical
  unfold lizardErr lizardOf
  intro h
  rw [dif_neg]
  intro hA
  rw [if_pos hA] at h
  exact h rfl

theorem PtRel.lizard {H : List UInt8 → Bytes 32} (hH : AvoidsNeutral H) {q : ExtPt F} {g : Option RGroup}
    (hq : PtRel q g) : Point.lizard H q = lizardOf H (g.getD 0) := by
  obtain ⟨h1, h2⟩ := hq.lizardInto hH (Vector.replicate 16 0)
  unfold Point.lizard
  simp only
  by_cases h : lizardErr H (g.getD 0) = .nil
  · rw [h] at h1
    rw [if_pos h1]
    rw [h1, if_neg (by decide)] at h2
    rw [h2]
    unfold lizardBufOf
    rw [h]
  · rw [if_neg (h1 ▸ h), lizardErr_nil h]

theorem take16_mod (v : Bytes 64) : leNat (v.toList.take 16) = leVal v % 2 ^ 128 := by
  have hl : v.toList.length = 64 := by simp
  unfold leVal
  rw [(leNat_take_drop _ 16 (by omega)).1, show (256 : ℕ) ^ 16 = 2 ^ 128 by norm_num]

theorem mk_toBytes {data : List UInt8} (h : data.length = 32) (h' : data.toArray.size = 32) :
    (⟨data.toArray, h'⟩ : Bytes 32) = toBytes 32 data := by
  apply Vector.ext
  intro i hi
  simp [toBytes, List.getD_eq_getElem?_getD, h, hi]

theorem decodeSlice_eq {data : List UInt8} (h : data.length = 32) : decodeSlice data h = decode (toBytes 32 data) :=
  congrArg decode (mk_toBytes h _)

theorem PtRel.jacobiRecv {q : ExtPt F} {g : Option RGroup} (h : PtRel q g) :
    PtRel (toJacobiQuarticRistrettoRecv q) g := by
  cases g with
  | some g =>
    obtain ⟨P, hP, h1, h2⟩ := h
    obtain ⟨bx, ex⟩ := touch_law h1.bX
    obtain ⟨bY, ey⟩ := touch_law h1.bY
    refine ⟨P, hP, ⟨bx, bY, h1.bZ, h1.bT, ?_⟩, h2⟩
    simp only [toJacobiQuarticRistrettoRecv, ex, ey]
    exact h1.proj
  | none =>
    obtain ⟨bx, ex⟩ := touch_law h.bX
    obtain ⟨bY, ey⟩ := touch_law h.bY
    exact { bX := bx, bY := bY, bZ := h.bZ, bT := h.bT, x := ex.trans h.x, y := ey.trans h.y, t := h.t }

theorem Rel.setPt_same (h : Rel m a) (p : ℕ) {q : ExtPt F} (hq : PtRel q (a.pts p)) : Rel (m.setPt p q) a := by
  refine ⟨fun k => ?_, h.scs, h.tabs⟩
  show PtRel (if k = p then q else m.pts k) (a.pts k)
  split
  · rename_i e; rw [e]; exact hq
  · exact h.pts k

/-! One call -/

theorem step (e : Env F) (hH : AvoidsNeutral e.sha256) (hB : HoldsT e.baseTab baseR) (h : Rel m a) (c : Cmd) :
    Sim (exec e m c) (aexec e.sha256 e.sha512 a c) := by
  have hpt : ∀ (p : ℕ) {q : ExtPt F} {g : Option RGroup} {o : Out}, PtRel q g →
      Sim (some (m.setPt p q, o)) (some (a.setPt p g, o)) := fun p _ _ _ hq => ⟨h.setPt p hq, rfl⟩
  have hsc : ∀ (p : ℕ) {q : Scalar} {g : ZMod l} {o : Out}, ScRel q g →
      Sim (some (m.setSc p q, o)) (some (a.setSc p g, o)) := fun p _ _ _ hq => ⟨h.setSc p hq, rfl⟩
  have hout : ∀ {o o' : Out}, o = o' → Sim (some (m, o)) (some (a, o')) := fun e => ⟨h, e⟩
  cases c with
  | pZero p => exact hpt p holds_zero
  | pBase p => exact hpt p holds_base
  | pSet p q => exact hpt p (h.pts q)
  | pAdd p q r => exact hpt p ((h.pts q).add (h.pts r))
  | pDouble p q => exact hpt p (h.pts q).double
  | pSub p q r => exact hpt p ((h.pts q).sub (h.pts r))
  | pNeg p q => exact hpt p (h.pts q).neg
  | pBytes p => exact hout (by rw [← (h.pts p).bytes]; rfl)
  | pSetBytes p buf =>
    obtain ⟨h1, h2⟩ := ptRel_setBytes (F := F) buf
    exact ⟨h.setPt p h1, congrArg Out.bool h2⟩
  | pSetElligator p buf => exact hpt p (setElligator_holds buf)
  | pRand p buf => exact hpt p (setElligator_holds buf)
  | pDerive p data => exact hpt p (feOfBytes_slice_low (e.sha512 data) ▸ derive_holds _ data)
  | pDeriveDalek p data =>
    exact hpt p (feOfBytes_slice_low (e.sha512 data) ▸ feOfBytes_slice_high (e.sha512 data) ▸ deriveDalek_holds _ data)
  | pSetLizard p data =>
    have := setLizard_holds (F := F) e.sha256 data
    exact hpt p (g := some (lizardMap e.sha256 data)) (by rw [lizardMap_eq]; exact this)
  | pLizard p => exact ⟨h.setPt_same p (h.pts p).jacobiRecv, congrArg Out.lizard ((h.pts p).lizard hH)⟩
  | pLizardInto p buf =>
    obtain ⟨h1, h2⟩ := (h.pts p).lizardInto hH buf
    exact ⟨h.setPt_same p (h.pts p).jacobiRecv, congrArg₂ Out.lizardInto h1 h2⟩
  | pEqualsI p q => exact hout (congrArg Out.int32 ((h.pts p).equalsI (h.pts q)))
  | pEquals p q => exact hout (congrArg Out.bool ((h.pts p).equals (h.pts q)))
  | pCondSet p q b =>
    refine hpt p ?_
    cases b
    · show PtRel (ExtPt.condSet _ _ 0) (a.pts p)
      have : ExtPt.condSet (m.pts p) (m.pts q) 0 = m.pts p := by
        unfold ExtPt.condSet; simp only [LawfulField.condSet_zero]
      rw [this]; exact h.pts p
    · show PtRel (ExtPt.condSet _ _ 1) (a.pts q)
      have : ExtPt.condSet (m.pts p) (m.pts q) 1 = m.pts q := by
        unfold ExtPt.condSet; simp only [LawfulField.condSet_one]
      rw [this]; exact h.pts q
  | pUnmarshalBinary p data =>
    unfold exec aexec
    simp only
    by_cases hl : data.length = 32
    · rw [unmarshalBinary_eq hl, dif_pos hl, decodeSlice_eq hl]
      obtain ⟨h1, h2⟩ := ptRel_setBytes (F := F) (toBytes 32 data)
      exact ⟨h.setPt p h1, congrArg Out.bool h2⟩
    · rw [unmarshalBinary_length hl, dif_neg hl]
      simp only [setPt_self]
      exact ⟨h, rfl⟩
  | pMarshalText p => exact hout (by rw [← text32_eq, ← (h.pts p).bytes]; rfl)
  | pUnmarshalText p txt =>
    unfold exec aexec Point.unmarshalText
    simp only [parsePoint_eq]
    cases textToBuf txt with
    | panic => exact trivial
    | err =>
      simp only [Option.bind_eq_bind, Option.bind_some, setPt_self]
      exact ⟨h, rfl⟩
    | ok buf =>
      obtain ⟨h1, h2⟩ := ptRel_setBytes (F := F) (toBytes 32 buf)
      exact ⟨h.setPt p h1, congrArg Out.bool h2⟩
  | pScalarMult p q s => exact hpt p ((h.pts q).smul (h.scs s))
  | pPublicScalarMult p q s =>
    obtain ⟨r, e, hr⟩ := (h.pts q).psmul (h.scs s)
    unfold exec
    simp only [e, Option.bind_eq_bind, Option.bind_some]
    exact hpt p hr
  | pScalarMultBase p s => exact hpt p (TabRel.smul (g := some baseR) hB (h.scs s))
  | pPublicScalarMultBase p s =>
    obtain ⟨r, e, hr⟩ := TabRel.psmul (g := some baseR) hB (h.scs s)
    unfold exec
    simp only [e, Option.bind_eq_bind, Option.bind_some]
    exact hpt p hr
  | pScalarMultTable p t s => exact hpt p ((h.tabs t).smul (h.scs s))
  | pPublicScalarMultTable p t s =>
    obtain ⟨r, e, hr⟩ := (h.tabs t).psmul (h.scs s)
    unfold exec
    simp only [e, Option.bind_eq_bind, Option.bind_some]
    exact hpt p hr
  | tCompute t p => exact ⟨h.setTab t (h.pts p).compute, rfl⟩
  | sZero s => exact hsc s (scRel_of (by rw [scVal_scZero]; exact l_prime.pos) (by rw [scVal_scZero, Nat.cast_zero]))
  | sOne s =>
    have : scVal scOne = 1 := by decide +kernel
    exact hsc s (scRel_of (by rw [this]; exact l_prime.one_lt) (by rw [this, Nat.cast_one]))
  | sSet s x => exact hsc s (h.scs x)
  | sAdd s x y =>
    refine hsc s (scRel_of_mod (add_red ?_) ?_)
    · have := (h.scs x).lt; have := (h.scs y).lt; omega
    · rw [Nat.cast_add, (h.scs x).cast, (h.scs y).cast]
  | sSub s x y =>
    refine hsc s (scRel_of_emod (sub_red_mod (h.scs x).lt (h.scs y).lt) ?_)
    push_cast
    rw [(h.scs x).cast, (h.scs y).cast]
  | sNeg s x =>
    refine hsc s (scRel_of_emod ((neg_red (h.scs x).lt.le).resolve_right (h.scs x).lt.ne) ?_)
    push_cast
    rw [(h.scs x).cast]
  | sMul s x y =>
    refine hsc s (scRel_of_mod (mul_spec _ _) ?_)
    rw [Nat.cast_mul, (h.scs x).cast, (h.scs y).cast]
  | sSquare s x =>
    refine hsc s (scRel_of_mod (square_spec _) ?_)
    rw [Nat.cast_mul, (h.scs x).cast, sq]
  | sMulAdd s x y z =>
    refine hsc s (scRel_of_mod (mulAdd_spec _ _ _) ?_)
    rw [Nat.cast_add, Nat.cast_mul, (h.scs x).cast, (h.scs y).cast, (h.scs z).cast]
  | sMulSub s x y z =>
    refine hsc s (scRel_of_emod (mulSub_spec _ _ _) ?_)
    push_cast
    rw [(h.scs x).cast, (h.scs y).cast, (h.scs z).cast]
  | sInverse s x =>
    refine hsc s (scRel_of (inverse_red _) ?_)
    have hx := (h.scs x).cast
    by_cases h0 : a.scs x = 0
    · rw [inverse_zero, h0, inv_zero, Nat.cast_zero]
      rw [(h.scs x).zero_iff.2 h0, Nat.zero_mod]
    · have h1 := inverse_mul (m.scs x) (by
        rw [Nat.mod_eq_of_lt (h.scs x).lt]; exact fun hz => h0 ((h.scs x).zero_iff.1 hz))
      apply eq_inv_of_mul_eq_one_left
      rw [← hx, ← Nat.cast_mul, ← ZMod.natCast_mod, h1, Nat.cast_one]
  | sCondSet s x b =>
    refine hsc s ?_
    cases b
    · show ScRel (Scalar.condSet _ _ 0) (a.scs s)
      rw [(condSet_sc _ _).1]; exact h.scs s
    · show ScRel (Scalar.condSet _ _ 1) (a.scs x)
      rw [(condSet_sc _ _).2]; exact h.scs x
  | sSetBytes s buf => exact hsc s (scRel_of_mod (setBytes_val _) rfl)
  | sSetBytesStrict s buf =>
    obtain ⟨h1, h2⟩ := setBytesStrict_spec (m.scs s) buf
    unfold exec aexec
    simp only
    by_cases hl : leVal buf < l
    · obtain ⟨h3, h4⟩ := h1 hl
      rw [if_pos hl, h3]
      exact hsc s (scRel_of (h4 ▸ hl) (by rw [h4]; rfl))
    · rw [if_neg hl, h2 hl]
      simp only [setSc_self]
      exact ⟨h, rfl⟩
  | sSetReduced s buf => exact hsc s (scRel_of_mod (setReduced_val _) rfl)
  | sRand s buf => exact hsc s (scRel_of_mod (setReduced_val _) rfl)
  | sDerive s data => exact hsc s (scRel_of_mod (setReduced_val _) rfl)
  | sDeriveShort s data =>
    have := deriveShort_val (e.sha512 data)
    rw [take16_mod] at this
    refine hsc s (scRel_of ?_ (by rw [this]))
    rw [this]
    have h1 := Nat.mod_lt (leVal (e.sha512 data)) (show 0 < 2 ^ 128 by norm_num)
    have hl := l_eq
    simp only [Nat.reducePow] at *
    omega
  | sSetBigInt s x => exact hsc s (scRel_of_emod (setBigInt_val x) rfl)
  | sSetUint64 s x =>
    refine hsc s (scRel_of ?_ (by rw [setUint64_val]))
    rw [setUint64_val]
    have := x.toNat_lt
    have hl := l_eq
    simp only [Nat.reducePow] at *
    omega
  | sUnmarshalBinary s data =>
    unfold exec aexec Scalar.unmarshalBinary
    by_cases hl : data.length = 32
    · simp only [dif_pos hl, if_pos hl]
      refine hsc s (scRel_of_mod (setBytes_val _) rfl)
    · simp only [dif_neg hl, if_neg hl, setSc_self]
      exact ⟨h, rfl⟩
  | sUnmarshalText s txt =>
    unfold exec aexec Scalar.unmarshalText
    simp only [parseScalar_eq]
    cases b64Decode 32 txt with
    | panic => exact trivial
    | err =>
      simp only [Option.bind_eq_bind, Option.bind_some, setSc_self]
      exact ⟨h, rfl⟩
    | ok out =>
      by_cases hl : out.length = 32
      · simp only [if_pos hl, if_neg (not_not.2 hl), Option.bind_eq_bind, Option.bind_some]
        refine hsc s (scRel_of_mod (setBytes_val _) ?_)
        unfold leVal
        rw [toBytes_val hl]
      · simp only [if_neg hl, if_pos hl, Option.bind_eq_bind, Option.bind_some, setSc_self]
        exact ⟨h, rfl⟩
  | sBytes s => exact hout (by rw [← (h.scs s).bytes]; rfl)
  | sMarshalText s => exact hout (by rw [← text32_eq, ← (h.scs s).bytes]; rfl)
  | sBigInt s => exact hout (by rw [bigInt_val, h.scs s])
  | sIsNonZeroI s =>
    refine hout (congrArg Out.int32 ?_)
    rw [isNonZeroI_sc]
    have := (h.scs s).zero_iff
    unfold flag
    by_cases h0 : a.scs s = 0
    · rw [if_pos h0, if_neg (not_not.2 (this.2 h0))]
    · rw [if_neg h0, if_pos (fun hz => h0 (this.1 hz))]
  | sEqualsI s x =>
    refine hout (congrArg Out.int32 ?_)
    rw [equalsI_sc (h.scs x).lt]
    have := (h.scs s).eq_iff (h.scs x)
    unfold flag
    by_cases h0 : a.scs s = a.scs x
    · rw [if_pos h0, if_pos (this.2 h0)]
    · rw [if_neg h0, if_neg (fun hz => h0 (this.1 hz))]
  | sEquals s x =>
    refine hout (congrArg Out.bool ?_)
    have := (h.scs s).eq_iff (h.scs x)
    rw [equals_sc (h.scs x).lt]
    by_cases h0 : a.scs s = a.scs x
    · rw [if_pos h0, decide_eq_true (this.2 h0)]
    · rw [if_neg h0, decide_eq_false (fun hz => h0 (this.1 hz))]

/-! Programs -/

/-- Both panic, or both finish in related states with the same outputs. -/
def SimR : Option (Mem F × List Out) → Option (AState × List Out) → Prop
  | some (m, o), some (a, o') => Rel m a ∧ o = o'
  | none, none => True
  | _, _ => False

theorem run_sim (e : Env F) (hH : AvoidsNeutral e.sha256) (hB : HoldsT e.baseTab baseR) (cs : List Cmd) :
    ∀ (m : Mem F) (a : AState), Rel m a → SimR (run e m cs) (arun e.sha256 e.sha512 a cs) := by
  induction cs with
  | nil => intro m a h; exact ⟨h, rfl⟩
  | cons c cs ih =>
    intro m a h
    have hs := step e hH hB h c
    unfold run arun
    cases h1 : exec e m c with
    | none =>
      cases h2 : aexec e.sha256 e.sha512 a c with
      | none => exact trivial
      | some y => rw [h1, h2] at hs; exact hs.elim
    | some x =>
      cases h2 : aexec e.sha256 e.sha512 a c with
      | none => rw [h1, h2] at hs; exact hs.elim
      | some y =>
        rw [h1, h2] at hs
        obtain ⟨m', o⟩ := x
        obtain ⟨a', o'⟩ := y
        obtain ⟨hr, ho⟩ := hs
        have := ih m' a' hr
        simp only [Option.bind_eq_bind, Option.bind_some]
        cases h3 : run e m' cs with
        | none =>
          cases h4 : arun e.sha256 e.sha512 a' cs with
          | none => exact trivial
          | some y => rw [h3, h4] at this; exact this.elim
        | some x =>
          cases h4 : arun e.sha256 e.sha512 a' cs with
          | none => rw [h3, h4] at this; exact this.elim
          | some y =>
            rw [h3, h4] at this
            obtain ⟨m'', os⟩ := x
            obtain ⟨a'', os'⟩ := y
            obtain ⟨hr', ho'⟩ := this
            exact ⟨hr', by rw [ho, ho']⟩

theorem degN_zero : DegN (⟨feZero, feZero, feZero⟩ : NielsPt F) :=
  ⟨bd12 bd_feZero, bd12 bd_feZero, bd12 bd_feZero, eval_feZero, eval_feZero⟩

theorem rel_init : Rel (Mem.init : Mem F) AState.init := by
  refine ⟨fun _ => deg_zero, fun _ => ?_, fun _ => ?_⟩
  · exact scRel_of (by show scVal scZero < l; rw [scVal_scZero]; exact l_prime.pos)
      (by show (scVal scZero : ZMod l) = 0; rw [scVal_scZero, Nat.cast_zero])
  · refine ⟨by simp [Mem.init], fun row hr => ?_⟩
    rw [List.eq_of_mem_replicate hr]
    exact ⟨by simp, fun e he => by rw [List.eq_of_mem_replicate he]; exact degN_zero⟩

end Ristretto.Proofs
