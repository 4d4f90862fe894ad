import Verif.Proofs.Loops

/-!
# Variable-time scalar multiplication with checked indices
-/

set_option autoImplicit false

namespace Ristretto.Proofs.Loops
open Ristretto Ristretto.Model

theorem nafWords_eq (s : Bytes 32) :
    Loops.nafWords s.toList = some [nafWord s 0, nafWord s 1, nafWord s 2, nafWord s 3, 0] := by
  refine vec32 (fun s => Loops.nafWords s.toList = some [nafWord s 0, nafWord s 1, nafWord s 2, nafWord s 3, 0]) ?_ s
  intros
  krfl

/-- The array `naf` has the entries `f 0 ... f 255`. -/
def Entries (naf : List Int8) (f : Nat → Int8) : Prop := naf.length = 256 ∧ ∀ i, i < 256 → naf[i]? = some (f i)

theorem entries_get {naf : List Int8} {f : Nat → Int8} (h : Entries naf f) {i : Nat} (hi : i < 256) :
    Loops.get naf (i : Int) = some (f i) := by rw [get_ofNat, h.2 i hi]

theorem entries_set {naf : List Int8} {f : Nat → Int8} (h : Entries naf f) {i : Nat} (hi : i < 256) (v : Int8) :
    ∃ naf', Loops.put naf (i : Int) v = some naf' ∧ Entries naf' (nafSet f i v) := by
  refine ⟨_, put_ofNat naf i v (by rw [h.1]; exact hi), by simp [h.1], fun k hk => ?_⟩
  rw [List.getElem?_set]
  unfold nafSet
  by_cases hki : i = k
  · subst hki; simp [h.1, hi]
  · rw [if_neg hki, if_neg (fun e => hki e.symm), h.2 k hk]

theorem u16_toUInt64 (a : UInt16) : a.toUInt64 = UInt64.ofNat a.toNat := UInt64.toNat_inj.1 (by simp)

theorem nafLoop_eq (xs : List UInt64) (x : Nat → UInt64) (hx : ∀ i, i < 5 → xs[i]? = some (x i)) :
    ∀ (fuel : Nat) (pos : UInt16) (carry : UInt64) (naf : List Int8) (f : Nat → Int8), Entries naf f →
      pos.toNat ≤ 260 → 256 ≤ fuel + pos.toNat →
      ∃ naf', Loops.nafLoop xs fuel pos carry naf = some naf' ∧ Entries naf' (Model.nafLoop x fuel pos.toNat carry f) := by
  intro fuel
  induction fuel with
  | zero =>
    intro pos carry naf f h hp hf
    refine ⟨naf, ?_, h⟩
    have : ¬ pos < 256 := by
      rw [UInt16.lt_iff_toNat_lt]
      have : (256 : UInt16).toNat = 256 := rfl
      omega
    simp [Loops.nafLoop, this]
  | succ fuel ih =>
    intro pos carry naf f h hp hf
    have h256 : (256 : UInt16).toNat = 256 := rfl
    by_cases hlt : pos < 256
    · have hn : pos.toNat < 256 := by rw [UInt16.lt_iff_toNat_lt] at hlt; omega
      have hidx : (pos / 64).toNat = pos.toNat / 64 := by rw [UInt16.toNat_div]; rfl
      have hbit : (pos % 64).toNat = pos.toNat % 64 := by rw [UInt16.toNat_mod]; rfl
      have hidx1 : (1 + pos / 64).toNat = 1 + pos.toNat / 64 := by
        rw [UInt16.toNat_add, hidx]
        have : (1 : UInt16).toNat = 1 := rfl
        rw [this]; omega
      have hlt59 : (pos % 64 < 59) ↔ pos.toNat % 64 < 59 := by
        rw [UInt16.lt_iff_toNat_lt, hbit]; rfl
      have hsub : (64 - pos % 64).toNat = 64 - pos.toNat % 64 := by
        rw [UInt16.toNat_sub_of_le, hbit]
        · rfl
        · rw [UInt16.le_iff_toNat_le, hbit]
          have : (64 : UInt16).toNat = 64 := rfl
          omega
      have hb : Loops.nafBits xs pos = some (Model.nafBits x pos.toNat) := by
        unfold Loops.nafBits Model.nafBits
        simp only [u16_toUInt64, hidx, hidx1, hbit, hsub, get_ofNat, hx _ (show pos.toNat / 64 < 5 by omega),
          hx _ (show 1 + pos.toNat / 64 < 5 by omega), Option.bind_eq_bind, Option.bind_some]
        by_cases h59 : pos.toNat % 64 < 59
        · simp [hlt59, h59]
        · simp [hlt59, h59]
      have h1 : (pos + 1).toNat = pos.toNat + 1 := by
        rw [UInt16.toNat_add]
        have : (1 : UInt16).toNat = 1 := rfl
        rw [this]; omega
      have h5 : (pos + 5).toNat = pos.toNat + 5 := by
        rw [UInt16.toNat_add]
        have : (5 : UInt16).toNat = 5 := rfl
        rw [this]; omega
      unfold Loops.nafLoop Model.nafLoop
      simp only [hlt, hn, if_true]
      rw [hb]
      simp only [Option.bind_eq_bind, Option.bind_some]
      by_cases hw : (carry + (nafBits x pos.toNat &&& 31) &&& 1 == 0) = true
      · simp only [hw, if_true]
        rw [← h1]
        exact ih _ _ _ _ h (by omega) (by omega)
      · simp only [hw]
        by_cases hw2 : carry + (nafBits x pos.toNat &&& 31) < 16
        · obtain ⟨naf', hp', he⟩ := entries_set h hn (carry + (nafBits x pos.toNat &&& 31)).toUInt8.toInt8
          simp only [hw2, if_true, hp', Option.bind_some]
          rw [← h5]
          exact ih _ _ _ _ he (by omega) (by omega)
        · obtain ⟨naf', hp', he⟩ := entries_set h hn ((carry + (nafBits x pos.toNat &&& 31)).toUInt8.toInt8 - 32)
          simp only [hw2, if_false, hp', Option.bind_some]
          rw [← h5]
          exact ih _ _ _ _ he (by omega) (by omega)
    · have hn : ¬ pos.toNat < 256 := by rw [UInt16.lt_iff_toNat_lt] at hlt; omega
      refine ⟨naf, ?_, ?_⟩
      · simp [Loops.nafLoop, hlt]
      · simp only [Model.nafLoop, hn, if_false]; exact h

theorem computeScalar5NAF_eq (s : Bytes 32) :
    ∃ naf, Loops.computeScalar5NAF s.toList (List.replicate 256 0) = some naf ∧ Entries naf (Model.computeScalar5NAF s) := by
  unfold Loops.computeScalar5NAF
  rw [nafWords_eq, Option.bind_eq_bind, Option.bind_some]
  have h0 : Entries (List.replicate 256 0) (fun _ => 0) := by
    refine ⟨List.length_replicate, fun i hi => ?_⟩
    rw [List.getElem?_replicate, if_pos hi]
  have := nafLoop_eq [nafWord s 0, nafWord s 1, nafWord s 2, nafWord s 3, 0] (nafWord s) (by
    intro i hi
    match i, hi with
    | 0, _ => rfl
    | 1, _ => rfl
    | 2, _ => rfl
    | 3, _ => rfl
    | 4, _ => rfl) 256 0 0 _ _ h0 (by decide) (by decide)
  exact this

theorem nafTop_eq {naf : List Int8} {f : Nat → Int8} (h : Entries naf f) : ∀ n, n ≤ 256 →
    Loops.nafTop naf n ((n : Int) - 1) = some (match Model.nafTop f n with | none => -1 | some i => (i : Int)) := by
  intro n
  induction n with
  | zero => intro; rfl
  | succ n ih =>
    intro hn
    have hi : ((n + 1 : Nat) : Int) - 1 = (n : Int) := by push_cast; ring
    rw [hi]
    unfold Loops.nafTop Model.nafTop
    rw [entries_get h (by omega), Option.bind_eq_bind, Option.bind_some]
    by_cases h0 : f n ≠ 0
    · rw [if_pos h0, if_pos h0]
    · rw [if_neg h0, if_neg h0, ih (by omega)]

theorem nafTop_lt (f : Nat → Int8) : ∀ n i, Model.nafTop f n = some i → i < n := by
  intro n
  induction n with
  | zero => intro i h; simp [Model.nafTop] at h
  | succ n ih =>
    intro i h
    unfold Model.nafTop at h
    split at h
    · simp at h; omega
    · have := ih i h; omega

section
variable {F : Type} [FieldOps F]

theorem nafSkip_eq {naf : List Int8} {f : Nat → Int8} (h : Entries naf f) : ∀ (i fuel : Nat) (cp : ComplPt F), i < fuel → i < 256 →
    Loops.nafSkip naf fuel (i : Int) cp = some (((Model.nafSkip f i cp).1 : Int), (Model.nafSkip f i cp).2) := by
  intro i
  induction i with
  | zero =>
    intro fuel cp hf _
    match fuel, hf with
    | fuel + 1, _ => simp [Loops.nafSkip, Model.nafSkip]
  | succ i ih =>
    intro fuel cp hf hi
    match fuel, hf with
    | fuel + 1, hf =>
      unfold Loops.nafSkip Model.nafSkip
      have hne : ¬ ((i + 1 : Nat) : Int) = 0 := by omega
      rw [entries_get h hi, if_neg hne, Option.bind_eq_bind, Option.bind_some]
      by_cases h0 : f (i + 1) ≠ 0
      · rw [if_pos h0, if_pos h0]
      · rw [if_neg h0, if_neg h0, show ((i + 1 : Nat) : Int) - 1 = (i : Int) by push_cast; ring, ih fuel _ (by omega) (by omega)]

theorem nafSkip_le' (naf : Nat → Int8) : ∀ (i : Nat) (cp : ComplPt F), (Model.nafSkip naf i cp).1 ≤ i := by
  intro i
  induction i with
  | zero => intro cp; exact Nat.le_refl _
  | succ i ih =>
    intro cp
    unfold Model.nafSkip
    split
    · exact Nat.le_refl _
    · exact Nat.le_succ_of_le (ih _)

theorem varTimeLut_eq (q : ExtPt F) : Loops.varTimeLut q = some (Model.varTimeLut q) := by
  simp [Loops.varTimeLut, Loops.forLt, Loops.iter, Loops.get, Loops.put, List.replicate, Model.varTimeLut, varTimeLutLoop,
    List.set]

theorem lutGet_eq {α : Type} (lut : List α) (k : Int8) : Loops.get lut k.toInt = lutGet lut k := by
  unfold Loops.get lutGet
  have : (k < 0) ↔ k.toInt < 0 := by rw [Int8.lt_iff_toInt_lt]; rfl
  by_cases h : k < 0
  · rw [if_pos h, if_neg (by rw [this] at h; omega)]
  · rw [if_neg h, if_pos (by rw [this] at h; omega)]

theorem digit_eq (d : Int8) (lut : List (ExtPt F)) (p : ExtPt F) :
    Loops.varTimeDigit d lut p = Model.varTimeDigit d lut p := by
  unfold Loops.varTimeDigit Model.varTimeDigit
  simp only [lutGet_eq, Option.bind_eq_bind, Option.map_eq_bind]
  rfl

theorem varTimeLoop_eq {naf : List Int8} {f : Nat → Int8} (h : Entries naf f) (lut : List (ExtPt F)) :
    ∀ (i fuel fuel' : Nat) (p : ExtPt F), i < fuel → i < fuel' → i < 256 →
      Loops.varTimeLoop naf lut fuel (i : Int) p = Model.varTimeLoop f lut fuel' i p := by
  intro i
  induction i using Nat.strong_induction_on with
  | _ i ih =>
    intro fuel fuel' p hf hf' hi
    match fuel, fuel', hf, hf' with
    | fuel + 1, fuel' + 1, hf, hf' =>
      unfold Loops.varTimeLoop Model.varTimeLoop
      rw [entries_get h hi, Option.bind_eq_bind, Option.bind_some, digit_eq]
      simp only [Option.bind_eq_bind]
      congr 1
      funext cp
      match i, ih, hf, hf', hi with
      | 0, _, _, _, _ => rfl
      | i + 1, ih, hf, hf', hi =>
        have hne : ¬ ((i + 1 : Nat) : Int) = 0 := by omega
        have hle := nafSkip_le' f i (ComplPt.doubleProjective cp.toProjective)
        rw [if_neg hne, show ((i + 1 : Nat) : Int) - 1 = (i : Int) by push_cast; ring, nafSkip_eq h i 256 _ (by omega) (by omega),
          Option.bind_some, entries_get h (by omega), Option.bind_some]
        simp only []
        by_cases h0 : f (Model.nafSkip f i (ComplPt.doubleProjective cp.toProjective)).1 = 0
        · rw [if_pos h0, if_pos h0]; rfl
        · rw [if_neg h0, if_neg h0]
          exact ih _ (by omega) fuel fuel' _ (by omega) (by omega) (by omega)

theorem varTimeScalarMult_eq (q : ExtPt F) (s : Bytes 32) :
    Loops.varTimeScalarMult q s.toList = Model.varTimeScalarMult q s := by
  obtain ⟨naf, hn, he⟩ := computeScalar5NAF_eq s
  unfold Loops.varTimeScalarMult Model.varTimeScalarMult
  have ht := nafTop_eq he 256 (by omega)
  rw [show ((256 : Nat) : Int) - 1 = 255 by norm_num] at ht
  rw [varTimeLut_eq, hn, Option.bind_eq_bind, Option.bind_some, Option.bind_eq_bind, Option.bind_some, ht,
    Option.bind_eq_bind, Option.bind_some]
  have hlt := nafTop_lt (Model.computeScalar5NAF s) 256
  cases hc : Model.nafTop (Model.computeScalar5NAF s) 256 with
  | none => simp only [hc]; rfl
  | some i =>
    have := hlt i hc
    simp only [hc]
    rw [if_neg (by omega)]
    exact varTimeLoop_eq he _ i 256 (i + 1) _ (by omega) (by omega) (by omega)

end
end Ristretto.Proofs.Loops
