import Verif.Model.ObliviousSha
import Verif.Spec.Oblivious

/-!
# SHA-2 is a straight-line program

A map of words that respects the operations respects the hash function.
-/

namespace Ristretto.Proofs.Obl
set_option autoImplicit false
open Ristretto.Model Ristretto.Model.Obl Ristretto.Sha2

/-- Maps of bytes and words that respect the operations. -/
structure Hom {C B W B' W' : Type} (o : WordOps C B W) (o' : WordOps C B' W') (f : B → B') (g : W → W') : Prop where
  byte : ∀ b, f (o.byte b) = o'.byte b
  const : ∀ c, g (o.const c) = o'.const c
  ofBytes : ∀ l, g (o.ofBytes l) = o'.ofBytes (l.map f)
  toBytes : ∀ w, (o.toBytes w).map f = o'.toBytes (g w)
  add : ∀ a b, g (o.add a b) = o'.add (g a) (g b)
  and : ∀ a b, g (o.and a b) = o'.and (g a) (g b)
  xor : ∀ a b, g (o.xor a b) = o'.xor (g a) (g b)
  not : ∀ a, g (o.not a) = o'.not (g a)
  rotr : ∀ a n, g (o.rotr a n) = o'.rotr (g a) n
  shr : ∀ a n, g (o.shr a n) = o'.shr (g a) n

section
variable {C B W B' W' : Type} [Inhabited W] [Inhabited W'] {o : WordOps C B W} {o' : WordOps C B' W'} {f : B → B'} {g : W → W'}
  (h : Hom o o' f g) (hd : g default = default) (P : Params C)

/-- The image of a state. -/
def mapState (g : W → W') (s : State W) : State W' := ⟨g s.a, g s.b, g s.c, g s.d, g s.e, g s.f, g s.g, g s.h⟩

include hd in
theorem getD_hom (l : List W) (i : Nat) : (l.map g).getD i default = g (l.getD i default) := by
  rw [← hd]
  simp only [List.getD_eq_getElem?_getD, List.getElem?_map]
  cases l[i]? <;> rfl

include h hd in
theorem nextWindow_hom (w : List W) : (nextWindow o P w).map g = nextWindow o' P (w.map g) := by
  simp only [nextWindow, smallSigma, List.map_append, List.map_tail, List.map_cons, List.map_nil, getD_hom hd, h.add, h.xor, h.rotr, h.shr]

include h hd in
theorem round_hom (k : C) (w : List W) (s : State W) : mapState g (round o P k w s) = round o' P k (w.map g) (mapState g s) := by
  simp only [round, mapState, bigSigma, Ch, Maj, getD_hom hd, h.add, h.xor, h.rotr, h.and, h.not, h.const]

include h hd in
theorem rounds_hom (ks : List C) (w : List W) (s : State W) : mapState g (rounds o P ks w s) = rounds o' P ks (w.map g) (mapState g s) := by
  induction ks generalizing w s with
  | nil => rfl
  | cons k ks ih => simp only [rounds, ih, nextWindow_hom h hd, round_hom h hd]

include h hd in
theorem block_hom (s : State W) (w : List W) : mapState g (block o P s w) = block o' P (mapState g s) (w.map g) := by
  have := rounds_hom h hd P P.K w s
  simp only [block, ← this]
  simp only [mapState, h.add]

include h hd in
theorem blocks_hom (l : List (List W)) (s : State W) :
    mapState g (l.foldl (block o P) s) = (l.map (·.map g)).foldl (block o' P) (mapState g s) := by
  induction l generalizing s with
  | nil => rfl
  | cons w l ih => simp only [List.foldl_cons, List.map_cons, ih, block_hom h hd]

theorem pieces_map {α β : Type} (f : α → β) (k m : Nat) (l : List α) : pieces k m (l.map f) = (pieces k m l).map (·.map f) := by
  induction m generalizing l with
  | zero => rfl
  | succ m ih => simp only [pieces, List.map_cons, ← List.map_drop, ← List.map_take, ih]

include h hd in
/-- The hash of the image is the image of the hash. -/
theorem hash_hom (msg : List B) : (hash o P msg).map f = hash o' P (msg.map f) := by
  have hm : msg.map f ++ (padding P (msg.map f).length).map o'.byte = (msg ++ (padding P msg.length).map o.byte).map f := by
    rw [List.map_append, List.map_map, List.length_map]
    congr 1
    exact List.map_congr_left fun b _ => (h.byte b).symm
  have hw (l : List (List B)) : (l.map (·.map f)).map o'.ofBytes = (l.map o.ofBytes).map g := by
    rw [List.map_map, List.map_map]
    exact List.map_congr_left fun b _ => (h.ofBytes b).symm
  have hH : P.H0.map o'.const = (P.H0.map o.const).map g := by
    rw [List.map_map]
    exact List.map_congr_left fun b _ => (h.const b).symm
  simp only [Sha2.hash, hm]
  simp only [List.length_map, pieces_map f, pieces_map g, hw, hH, getD_hom hd]
  generalize pieces 16 _ _ = bs
  generalize P.H0.map o.const = H
  have hb : mapState g (bs.foldl (block o P) ⟨H.getD 0 default, H.getD 1 default, H.getD 2 default, H.getD 3 default, H.getD 4 default,
      H.getD 5 default, H.getD 6 default, H.getD 7 default⟩) =
    (bs.map (·.map g)).foldl (block o' P) ⟨g (H.getD 0 default), g (H.getD 1 default), g (H.getD 2 default), g (H.getD 3 default),
      g (H.getD 4 default), g (H.getD 5 default), g (H.getD 6 default), g (H.getD 7 default)⟩ := blocks_hom h hd P bs _
  rw [← hb]
  generalize bs.foldl (block o P) _ = s
  simp only [mapState]
  simp only [List.flatMap_cons, List.flatMap_nil, List.map_append, h.toBytes, List.map_nil]

end

variable (ρ : (t : Ty) → Name → t.Val)

theorem hom32 : Hom sops32 ops32 (ev ρ) (ev ρ) := by
  refine ⟨fun _ => rfl, fun _ => rfl, fun l => ?_, fun _ => rfl, fun _ _ => rfl, fun _ _ => rfl, fun _ _ => rfl, fun _ => rfl,
    fun _ _ => rfl, fun _ _ => rfl⟩
  have key (l : List U8) (a : U32) : ev ρ (l.foldl (fun a b => (a <<< 8) ||| b.toUInt32) a) =
      (l.map (ev ρ)).foldl (fun (a : UInt32) (b : UInt8) => (a <<< 8) ||| b.toUInt32) (ev ρ a) := by
    induction l generalizing a with
    | nil => rfl
    | cons b l ih => simp only [List.foldl_cons, List.map_cons, ih]; rfl
  exact key l 0

theorem hom64 : Hom sops64 ops64 (ev ρ) (ev ρ) := by
  refine ⟨fun _ => rfl, fun _ => rfl, fun l => ?_, fun _ => rfl, fun _ _ => rfl, fun _ _ => rfl, fun _ _ => rfl, fun _ => rfl,
    fun _ _ => rfl, fun _ _ => rfl⟩
  have key (l : List U8) (a : U64) : ev ρ (l.foldl (fun a b => (a <<< 8) ||| b.toUInt64) a) =
      (l.map (ev ρ)).foldl (fun (a : UInt64) (b : UInt8) => (a <<< 8) ||| b.toUInt64) (ev ρ a) := by
    induction l generalizing a with
    | nil => rfl
    | cons b l ih => simp only [List.foldl_cons, List.map_cons, ih]; rfl
  exact key l 0

theorem getD0_ev (l : List U8) (i : Nat) : ev ρ (l.getD i 0) = (l.map (ev ρ)).getD i (0 : UInt8) := by
  simp only [List.getD_eq_getElem?_getD, List.getElem?_map]
  cases l[i]? <;> rfl

theorem sha256S_ev (l : List U8) : (sha256S l).map (ev ρ) = Sha2.sha256 (l.map (ev ρ)) := by
  apply Vector.ext
  intro i hi
  simp only [sha256S, Sha2.sha256, Vector.getElem_map, Vector.getElem_ofFn]
  refine (getD0_ev ρ _ _).trans ?_
  rw [hash_hom (hom32 ρ) rfl]
theorem sha512S_ev (l : List U8) : (sha512S l).map (ev ρ) = Sha2.sha512 (l.map (ev ρ)) := by
  apply Vector.ext
  intro i hi
  simp only [sha512S, Sha2.sha512, Vector.getElem_map, Vector.getElem_ofFn]
  refine (getD0_ev ρ _ _).trans ?_
  rw [hash_hom (hom64 ρ) rfl]

/-- The symbolic environment is the actual one. -/
theorem go_same : SameEnv goSEnv ⟨Sha2.sha256, Sha2.sha512, baseTable⟩ := by
  refine ⟨sha256S_ev, sha512S_ev, fun ρ => ?_⟩
  simp only [goSEnv, List.map_map]
  generalize baseTable = t
  refine (List.map_congr_left fun r _ => ?_).trans (List.map_id t)
  simp only [Function.comp, List.map_map]
  exact (List.map_congr_left fun e _ => rfl).trans (List.map_id r)

/-- The same with the table of the generic build. -/
theorem generic_same : SameEnv genericSEnv ⟨Sha2.sha256, Sha2.sha512, baseTable25⟩ := by
  refine ⟨sha256S_ev, sha512S_ev, fun ρ => ?_⟩
  simp only [genericSEnv, List.map_map]
  generalize baseTable25 = t
  refine (List.map_congr_left fun r _ => ?_).trans (List.map_id t)
  simp only [Function.comp, List.map_map]
  exact (List.map_congr_left fun e _ => rfl).trans (List.map_id r)

end Ristretto.Proofs.Obl
