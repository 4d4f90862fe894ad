import Verif.Spec.Text
import Verif.Proofs.Text

/-!
# Hexadecimal text
-/

namespace Ristretto.Proofs
open Model
set_option autoImplicit false

theorem hexDig_iff : ∀ c : UInt8, ∀ v : ℕ, v < 16 → (HexDig c v ↔ hexDigit c = some (UInt8.ofNat v)) := by
  unfold HexDig
  exact uint8_forall (by decide +kernel)

theorem hexDig_lt {c : UInt8} {v : ℕ} (h : HexDig c v) : v < 16 := by
  unfold HexDig at h; omega

theorem hexDigit_lt : ∀ c : UInt8, ∀ w, hexDigit c = some w → w.toNat < 16 := by
  have : ∀ c : UInt8, ((hexDigit c).map fun w => decide (w.toNat < 16)).getD true = true := uint8_forall (by decide +kernel)
  intro c w h
  have := this c
  rw [h] at this
  simpa using this

theorem nibbles : ∀ x, x < 16 → ∀ y, y < 16 →
    ((UInt8.ofNat x <<< 4) ||| UInt8.ofNat y) = UInt8.ofNat (16 * x + y) := by decide +kernel

theorem hexDecode_of {txt bs : List UInt8} (h : IsHexOf txt bs) :
    hexDecode txt = some bs ∧ txt.length = 2 * bs.length := by
  induction h with
  | nil => exact ⟨rfl, rfl⟩
  | cons ha hb h ih =>
    have hx := hexDig_lt ha
    have hy := hexDig_lt hb
    rw [hexDecode, (hexDig_iff _ _ hx).1 ha, (hexDig_iff _ _ hy).1 hb]
    simp only [ih.1, Option.map_some, nibbles _ hx _ hy, true_and, List.length_cons]
    omega

theorem of_hexDecode : ∀ (n : ℕ) (txt bs : List UInt8), txt.length = 2 * n → hexDecode txt = some bs →
    IsHexOf txt bs := by
  intro n
  induction n with
  | zero =>
    intro txt bs hl h
    have : txt = [] := List.length_eq_zero_iff.1 (by omega)
    subst this
    simp only [hexDecode, Option.some.injEq] at h
    subst h
    exact .nil
  | succ n ih =>
    intro txt bs hl h
    match txt, hl with
    | a :: b :: rest, hl =>
      simp only [List.length_cons] at hl
      rw [hexDecode] at h
      cases ha : hexDigit a with
      | none => rw [ha] at h; simp at h
      | some x =>
        cases hb : hexDigit b with
        | none => rw [ha, hb] at h; simp at h
        | some y =>
          rw [ha, hb] at h
          simp only at h
          cases hr : hexDecode rest with
          | none => rw [hr] at h; simp at h
          | some bs' =>
            rw [hr] at h
            simp only [Option.map_some, Option.some.injEq] at h
            subst h
            have hx := hexDigit_lt a x ha
            have hy := hexDigit_lt b y hb
            have e := nibbles _ hx _ hy
            rw [UInt8.ofNat_toNat, UInt8.ofNat_toNat] at e
            rw [e]
            exact .cons ((hexDig_iff a _ hx).2 (by rw [ha, UInt8.ofNat_toNat]))
              ((hexDig_iff b _ hy).2 (by rw [hb, UInt8.ofNat_toNat])) (ih rest bs' (by omega) hr)

theorem textToBuf_hex {txt bs : List UInt8} (h : IsHexOf txt bs) (hl : bs.length = 32) :
    textToBuf txt = .ok bs := by
  obtain ⟨h1, h2⟩ := hexDecode_of h
  unfold textToBuf
  simp only
  rw [if_pos (by omega), h1]
  simp only
  rw [if_pos hl]

theorem textToBuf_panic_iff (txt : List UInt8) :
    textToBuf txt = .panic ↔ b64Decode 32 txt = .panic ∧ ¬ ∃ bs, bs.length = 32 ∧ IsHexOf txt bs := by
  constructor
  · intro h
    refine ⟨?_, ?_⟩
    · have hv : ∀ r : Res (List UInt8), (match r with
          | Res.ok out => if out.length = 32 then Res.ok out else .err
          | r => r) = (.panic : Res (List UInt8)) → r = .panic := by
        intro r hr
        cases r with
        | ok out => simp only at hr; split at hr <;> simp at hr
        | err => simp at hr
        | panic => rfl
      unfold textToBuf at h
      simp only at h
      split at h
      · split at h
        · split at h
          · simp at h
          · exact hv _ h
        · exact hv _ h
      · exact hv _ h
    · rintro ⟨bs, hl, hb⟩
      rw [textToBuf_hex hb hl] at h
      simp at h
  · rintro ⟨h1, h2⟩
    unfold textToBuf
    simp only [h1]
    split
    · rename_i hl
      split
      · rename_i out ho
        split
        · rename_i h32
          exact absurd ⟨out, h32, of_hexDecode 32 _ _ (by omega) ho⟩ h2
        · rfl
      · rfl
    · rfl

theorem b64Char_iff : ∀ c : UInt8, B64Char c ↔ b64Digit c ≠ none := by
  unfold B64Char
  exact uint8_forall (by decide +kernel)

theorem withoutBreaks_eq (txt : List UInt8) : withoutBreaks txt = noBreaks txt := by
  unfold withoutBreaks noBreaks
  congr 1
  funext c
  revert c
  exact uint8_forall (by decide +kernel)

theorem longB64_iff (txt : List UInt8) : LongB64 txt ↔ b64Decode 32 txt = .panic := by
  rw [b64Decode_panic_iff, LongB64, withoutBreaks_eq]
  simp only [b64Char_iff]

end Ristretto.Proofs
