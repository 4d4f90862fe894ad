import Verif.Proofs.Degenerate
import Verif.Proofs.LizardNat

/-!
# Lizard decoding of variables with `X·Y = 0`

What `LizardInto` returns is the same for all of them, in particular for the neutral element and for
an all-zero variable.
-/

namespace Ristretto.Proofs
set_option autoImplicit false
open Model FieldOps LawfulField

variable {F : Type} [LawfulField F]

theorem zero_xy_results {q : ExtPt F} (bX : bd 2 q.X) (bY : bd 2 q.Y) (bZ : bd 2 q.Z)
    (h0 : eval q.X * eval q.Y = 0) :
    List.Forall₂ (fun (j : Fp × Fp) (e : F × Int32) => EllInvResult j.1 j.2 e.1 e.2)
      (eightPairs (0, 1) (0, 1) (1, 2 * sqrtM1 * eC) (-1, 2 * sqrtM1 * eC))
      (ristrettoElligator2Inverse q) := by
  obtain ⟨i0, i1, i2, i3⟩ := toJacobi_degenerate bX bY bZ h0
  exact inverse_results (j0 := (0, 1)) (j1 := (0, 1)) (j2 := (1, _)) (j3 := (-1, _))
    i0 onJac_zero_one i1 onJac_zero_one i2 onJac_one i3 onJac_neg_one

/-- The result is determined by the point of the quartic. -/
theorem EllInvResult.unique {s t : Fp} {f f' : F} {r r' : Int32} (hst : s = 0 → t = 1 ∨ t = -1)
    (h : EllInvResult s t f r) (h' : EllInvResult s t f' r') : r = r' ∧ (r = 1 → bytes f = bytes f') := by
  have key : r = 1 → r' = 1 → bytes f = bytes f' := by
    intro e e'
    obtain ⟨n, a, b⟩ := h.some e
    obtain ⟨n', a', b'⟩ := h'.some e'
    apply leVal_inj
    rw [bytes_law (bd_mono (by norm_num) h.bound), bytes_law (bd_mono (by norm_num) h'.bound)]
    congr 1
    by_cases hs : s = 0
    · rcases hst hs with ht | ht
      · rw [(b hs).1 ht, (b' hs).1 ht]
      · rw [(b hs).2 ht, (b' hs).2 ht]
    · exact ellJac_inj hs n n' (a hs) (a' hs)
  rcases h.bits with e | e <;> rcases h'.bits with e' | e'
  · exact ⟨e.trans e'.symm, fun h1 => by rw [e] at h1; exact absurd h1 (by decide)⟩
  · obtain ⟨h1, h2⟩ := h.none e
    exact absurd ((h'.some e').2.1 h1) (h2 _)
  · obtain ⟨h1, h2⟩ := h'.none e'
    exact absurd ((h.some e).2.1 h1) (h2 _)
  · exact ⟨e.trans e'.symm, fun _ => key e e'⟩

theorem lizData_congr (H : List UInt8 → Bytes 32) {L L' : List (F × Int32)}
    (h : List.Forall₂ (fun e e' : F × Int32 => e.2 = e'.2 ∧ (e.2 = 1 → bytes e.1 = bytes e'.1)) L L') :
    lizData H L = lizData H L' := by
  induction h with
  | nil => rfl
  | @cons e e' L L' h _ ih =>
    unfold lizData at ih ⊢
    have hok : LizOk H e ↔ LizOk H e' := by
      unfold LizOk
      rw [← h.1]
      constructor
      · rintro ⟨h1, h2⟩; rw [h.2 h1] at h2; exact ⟨h1, h2⟩
      · rintro ⟨h1, h2⟩; rw [← h.2 h1] at h2; exact ⟨h1, h2⟩
    by_cases hk : LizOk H e
    · have hk' := hok.1 hk
      rw [List.filter_cons_of_pos (by simpa using hk), List.filter_cons_of_pos (by simpa using hk'),
        List.map_cons, List.map_cons, ih, h.2 hk.1]
    · have hk' := fun x => hk (hok.2 x)
      rw [List.filter_cons_of_neg (by simpa using hk), List.filter_cons_of_neg (by simpa using hk'), ih]

theorem forall2_zip {α β γ : Type} {R : α → β → Prop} {S : α → γ → Prop} {T : β → γ → Prop}
    {A : List α} {B : List β} {C : List γ} (h : List.Forall₂ R A B) (h' : List.Forall₂ S A C)
    (k : ∀ a ∈ A, ∀ b c, R a b → S a c → T b c) : List.Forall₂ T B C := by
  induction h generalizing C with
  | nil => cases h'; exact .nil
  | @cons a b A B h _ ih =>
    cases h' with
    | cons h1 h2 =>
      exact .cons (k a List.mem_cons_self _ _ h h1) (ih h2 fun a' ha' => k a' (List.mem_cons_of_mem _ ha'))

theorem lizardInto_zero_xy (H : List UInt8 → Bytes 32) (buf : Bytes 16) {q r : ExtPt F}
    (hq : Small q) (hq0 : eval q.X * eval q.Y = 0) (hr : Small r) (hr0 : eval r.X * eval r.Y = 0) :
    Point.lizardInto H q buf = Point.lizardInto H r buf := by
  have h1 := zero_xy_results hq.bX hq.bY hq.bZ hq0
  have h2 := zero_xy_results hr.bX hr.bY hr.bZ hr0
  rw [lizardInto_spec H buf rfl (fun e he => (forall2_right h1 he).choose_spec.2.bits),
    lizardInto_spec H buf rfl (fun e he => (forall2_right h2 he).choose_spec.2.bits)]
  rw [lizData_congr H (forall2_zip h1 h2 fun j hj e e' he he' => EllInvResult.unique ?_ he he')]
  intro hs
  simp only [eightPairs, List.mem_cons, List.not_mem_nil, or_false] at hj
  rcases hj with rfl | rfl | rfl | rfl | rfl | rfl | rfl | rfl <;> simp at hs ⊢

theorem Deg.lizardInto {q : ExtPt F} (hq : Deg q) (H : List UInt8 → Bytes 32) (buf : Bytes 16) :
    Point.lizardInto H q buf = Point.lizardInto H (ExtPt.zero : ExtPt F) buf := by
  refine lizardInto_zero_xy H buf hq.toSmall (by rw [hq.x, zero_mul]) zero_spec.small ?_
  rw [show eval (ExtPt.zero : ExtPt F).X = 0 from eval_feZero, zero_mul]

theorem Deg.lizard {q : ExtPt F} (hq : Deg q) (H : List UInt8 → Bytes 32) :
    Point.lizard H q = Point.lizard H (ExtPt.zero : ExtPt F) := by
  unfold Point.lizard
  rw [hq.lizardInto]

end Ristretto.Proofs
