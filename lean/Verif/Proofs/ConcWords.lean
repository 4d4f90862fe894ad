import Verif.Proofs.ConcSpec

/-!
# The limbs of a field element, in the three builds
-/

namespace Ristretto.Proofs.Conc
open Model Model.Conc FieldOps
set_option autoImplicit false

theorem run_loads {W : Type} (m : Memory fun _ : Nat => W) : ∀ is : List Nat,
    (loads is).run m = some (is.map m, m)
  | [] => rfl
  | i :: is => by
    show ((loads is).bind fun ws => .ret (m i :: ws)).run m = _
    rw [run_bind, run_loads m is]; rfl

instance : LawfulWords Fe51 where
  len _ := rfl
  of_words _ := rfl
  bytesP m := by
    refine ⟨m, ?_, rfl⟩
    show ((loads [0, 1, 2, 3, 4]).bind fun ws => .ret (Fe51.bytes (ofWords51 ws))).run m = _
    rw [run_bind, run_loads]; rfl

instance : LawfulWords Asm.FeAsm where
  len _ := rfl
  of_words _ := rfl
  bytesP m := by
    refine ⟨m, ?_, rfl⟩
    show ((loads [0, 1, 2, 3, 4]).bind fun ws => .ret (Fe51.bytes (ofWords51 ws))).run m = _
    rw [run_bind, run_loads]; rfl

/-- Limb `i`. -/
def limb (x : Fe25) : Nat → Int32
  | 0 => x.l0 | 1 => x.l1 | 2 => x.l2 | 3 => x.l3 | 4 => x.l4
  | 5 => x.l5 | 6 => x.l6 | 7 => x.l7 | 8 => x.l8 | _ => x.l9

/-- Limb `i` replaced. -/
def setLimb (x : Fe25) (i : Nat) (w : Int32) : Fe25 :=
  match i with
  | 0 => { x with l0 := w } | 1 => { x with l1 := w } | 2 => { x with l2 := w } | 3 => { x with l3 := w }
  | 4 => { x with l4 := w } | 5 => { x with l5 := w } | 6 => { x with l6 := w } | 7 => { x with l7 := w }
  | 8 => { x with l8 := w } | _ => { x with l9 := w }

/-- The field element in a memory. -/
def at25 (m : Memory fun _ : Nat => Int32) : Fe25 := ⟨m 0, m 1, m 2, m 3, m 4, m 5, m 6, m 7, m 8, m 9⟩

/-- On every memory that holds `x`, the program ends with `y` in the memory and the result `a`. -/
def LimbAt {α : Type} (x : Fe25) (P : Limb α) (y : Fe25) (a : α) : Prop :=
  ∀ m, at25 m = x → ∃ m', P.run m = some (a, m') ∧ at25 m' = y

theorem LimbAt.bind {α β : Type} {x y z : Fe25} {P : Limb α} {K : α → Limb β} {a : α} {b : β}
    (hP : LimbAt x P y a) (hK : LimbAt y (K a) z b) : LimbAt x (P >>= K) z b := by
  intro m hm
  obtain ⟨m1, h1, h2⟩ := hP m hm
  obtain ⟨m2, h3, h4⟩ := hK m1 h2
  refine ⟨m2, ?_, h4⟩
  rw [bind_eq, run_bind, h1]; exact h3

theorem limb_rd (x : Fe25) (i : Nat) (hi : i < 10) : LimbAt x (rd i) x (limb x i) := by
  intro m hm
  refine ⟨m, ?_, hm⟩
  subst hm
  have h : i = 0 ∨ i = 1 ∨ i = 2 ∨ i = 3 ∨ i = 4 ∨ i = 5 ∨ i = 6 ∨ i = 7 ∨ i = 8 ∨ i = 9 := by omega
  rcases h with rfl | rfl | rfl | rfl | rfl | rfl | rfl | rfl | rfl | rfl <;> rfl

theorem limb_wr (x : Fe25) (i : Nat) (hi : i < 10) (w : Int32) : LimbAt x (wr i w) (setLimb x i w) () := by
  intro m hm
  refine ⟨_, rfl, ?_⟩
  subst hm
  have h : i = 0 ∨ i = 1 ∨ i = 2 ∨ i = 3 ∨ i = 4 ∨ i = 5 ∨ i = 6 ∨ i = 7 ∨ i = 8 ∨ i = 9 := by omega
  rcases h with rfl | rfl | rfl | rfl | rfl | rfl | rfl | rfl | rfl | rfl <;> rfl

/-- What `carryStep` does. -/
def carried (x : Fe25) (i : Nat) (s : Int32) : Fe25 :=
  setLimb (setLimb x (i + 1) (limb x (i + 1) + (limb x i >>> s))) i (limb x i - ((limb x i >>> s) <<< s))

theorem limb_setLimb (x : Fe25) (i j : Nat) (hi : i < 10) (hj : j < 10) (hne : j ≠ i) (w : Int32) :
    limb (setLimb x i w) j = limb x j := by
  have h : i = 0 ∨ i = 1 ∨ i = 2 ∨ i = 3 ∨ i = 4 ∨ i = 5 ∨ i = 6 ∨ i = 7 ∨ i = 8 ∨ i = 9 := by omega
  have h' : j = 0 ∨ j = 1 ∨ j = 2 ∨ j = 3 ∨ j = 4 ∨ j = 5 ∨ j = 6 ∨ j = 7 ∨ j = 8 ∨ j = 9 := by omega
  rcases h with rfl | rfl | rfl | rfl | rfl | rfl | rfl | rfl | rfl | rfl <;>
    rcases h' with rfl | rfl | rfl | rfl | rfl | rfl | rfl | rfl | rfl | rfl <;>
    first | rfl | exact absurd rfl hne

theorem limb_carry (x : Fe25) (i : Nat) (hi : i < 9) (s : Int32) :
    LimbAt x (carryStep i s) (carried x i s) () := by
  unfold carryStep carried
  refine (limb_rd x i (by omega)).bind <| (limb_rd x (i + 1) (by omega)).bind <|
    (limb_wr x (i + 1) (by omega) _).bind <| (limb_rd _ i (by omega)).bind ?_
  rw [limb_setLimb x (i + 1) i (by omega) (by omega) (by omega)]
  exact limb_wr _ i (by omega) _

theorem limb_loads (x : Fe25) : LimbAt x (loads [0, 1, 2, 3, 4, 5, 6, 7, 8, 9]) x (words25 x) := by
  intro m hm
  exact ⟨m, by rw [run_loads]; subst hm; rfl, hm⟩

theorem limb_bytes (x : Fe25) : LimbAt x bytesP25 (Fe25.reduce x) (Fe25.bytes x) := by
  unfold bytesP25
  refine (limb_rd x 9 (by decide)).bind <| (limb_rd x 0 (by decide)).bind <|
    (limb_rd x 1 (by decide)).bind <| (limb_rd x 2 (by decide)).bind <|
    (limb_rd x 3 (by decide)).bind <| (limb_rd x 4 (by decide)).bind <|
    (limb_rd x 5 (by decide)).bind <| (limb_rd x 6 (by decide)).bind <|
    (limb_rd x 7 (by decide)).bind <| (limb_rd x 8 (by decide)).bind <|
    (limb_rd x 9 (by decide)).bind <| (limb_rd x 0 (by decide)).bind <| ?_
  refine (limb_wr x 0 (by decide) _).bind <|
    (limb_carry _ 0 (by decide) _).bind <| (limb_carry _ 1 (by decide) _).bind <|
    (limb_carry _ 2 (by decide) _).bind <| (limb_carry _ 3 (by decide) _).bind <|
    (limb_carry _ 4 (by decide) _).bind <| (limb_carry _ 5 (by decide) _).bind <|
    (limb_carry _ 6 (by decide) _).bind <| (limb_carry _ 7 (by decide) _).bind <|
    (limb_carry _ 8 (by decide) _).bind <| (limb_rd _ 9 (by decide)).bind <|
    (limb_rd _ 9 (by decide)).bind <| (limb_wr _ 9 (by decide) _).bind <| (limb_loads _).bind ?_
  have hw : ∀ y : Fe25, ofWords25 (words25 y) = y := fun _ => rfl
  rw [hw]
  have hY : ∀ y z : Fe25, y = z → LimbAt y (pure (Fe25.pack y)) z (Fe25.pack z) := by
    rintro y _ rfl m hm
    exact ⟨m, rfl, hm⟩
  refine hY _ _ ?_
  simp only [carried, setLimb, limb, Fe25.reduce]

instance : LawfulWords Fe25 where
  len _ := rfl
  of_words _ := rfl
  bytesP m := by
    obtain ⟨m', h1, h2⟩ := limb_bytes (at25 m) m rfl
    exact ⟨m', h1, h2⟩

end Ristretto.Proofs.Conc
