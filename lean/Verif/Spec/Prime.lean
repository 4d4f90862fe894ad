import Mathlib.NumberTheory.LucasPrimality
import Mathlib.Tactic.NormNum.Prime
import Mathlib.Tactic.Ring

/-!
# The two primes: `p = 2^255 - 19` and `l = 2^252 + 27742317777372353535851937790883648493`

Primality by Pratt certificates (Lucas primality test), checked by kernel arithmetic on `Nat`.
-/

namespace Ristretto

/-- `a^e mod m` by square and multiply (fuel bounds the bit length of `e`). -/
def powModAux : ℕ → ℕ → ℕ → ℕ → ℕ → ℕ
  | 0, _, _, _, acc => acc
  | f + 1, a, e, m, acc =>
    if e = 0 then acc
    else powModAux f (a * a % m) (e / 2) m (if e % 2 = 1 then acc * a % m else acc)

def powMod (a e m : ℕ) : ℕ := powModAux 520 (a % m) e m (1 % m)

theorem powModAux_cast (m : ℕ) : ∀ f a e acc : ℕ, e < 2 ^ f →
    ((powModAux f a e m acc : ℕ) : ZMod m) = acc * (a : ZMod m) ^ e := by
  intro f
  induction f with
  | zero => intro a e acc h; have : e = 0 := by simpa using h
            subst this; simp [powModAux]
  | succ f ih =>
    intro a e acc h
    unfold powModAux
    split
    · rename_i h0; subst h0; simp
    · have he : e / 2 < 2 ^ f := by omega
      rw [ih _ _ _ he]
      have hm : ∀ x : ℕ, ((x % m : ℕ) : ZMod m) = x := fun x => ZMod.natCast_mod x m
      rw [hm]
      have e2 : e = 2 * (e / 2) + e % 2 := by omega
      rcases Nat.mod_two_eq_zero_or_one e with h1 | h1
      · rw [h1] at e2
        simp only [h1]
        conv_rhs => rw [e2]
        simp [pow_mul, pow_two]
      · rw [h1] at e2
        simp only [h1, if_true, hm]
        conv_rhs => rw [e2]
        push_cast
        rw [pow_add, pow_mul]
        ring

theorem powMod_cast (a e m : ℕ) (h : e < 2 ^ 520) :
    ((powMod a e m : ℕ) : ZMod m) = (a : ZMod m) ^ e := by
  unfold powMod
  rw [powModAux_cast m _ _ _ _ h]
  simp [ZMod.natCast_mod]

theorem powModAux_lt (m : ℕ) (hm : 0 < m) : ∀ f a e acc : ℕ, acc < m → powModAux f a e m acc < m := by
  intro f
  induction f with
  | zero => intro a e acc h; simpa [powModAux]
  | succ f ih =>
    intro a e acc h
    unfold powModAux
    split
    · exact h
    · apply ih
      split
      · exact Nat.mod_lt _ hm
      · exact h

theorem powMod_lt (a e m : ℕ) (hm : 0 < m) : powMod a e m < m :=
  powModAux_lt m hm _ _ _ _ (Nat.mod_lt _ hm)

/-- Pratt certificate check: all decidable parts in one boolean. -/
def prattOk (n a : ℕ) (fs : List ℕ) : Bool :=
  decide (1 < n) && decide (n < 2 ^ 520) && decide (fs.prod = n - 1) && decide (powMod a (n - 1) n = 1) &&
    fs.all fun q => decide (powMod a ((n - 1) / q) n ≠ 1)

theorem prime_of_pratt (n a : ℕ) (fs : List ℕ) (h : prattOk n a fs = true)
    (hfs : ∀ q ∈ fs, q.Prime) : n.Prime := by
  simp only [prattOk, Bool.and_eq_true, decide_eq_true_eq, List.all_eq_true] at h
  obtain ⟨⟨⟨⟨h1, h2⟩, h3⟩, h4⟩, h5⟩ := h
  apply lucas_primality n (a : ZMod n)
  · rw [← powMod_cast a (n - 1) n (by omega), h4]; simp
  · intro q hq hd heq
    rw [← h3] at hd
    obtain ⟨r, hr, hqr⟩ := (Prime.dvd_prod_iff hq.prime).1 hd
    have : q = r := (Nat.prime_dvd_prime_iff_eq hq (hfs r hr)).1 hqr
    subst this
    apply h5 q hr
    have hlt : (n - 1) / q < 2 ^ 520 := lt_of_le_of_lt (Nat.div_le_self _ _) (by omega)
    rw [← powMod_cast a _ n hlt] at heq
    have h6 := (ZMod.natCast_eq_natCast_iff' _ 1 n).1 (by simpa using heq)
    rw [Nat.mod_eq_of_lt (powMod_lt _ _ _ (by omega)), Nat.mod_eq_of_lt h1] at h6
    exact h6

theorem prime_34123 : Nat.Prime 34123 :=
  prime_of_pratt 34123 2 [2, 3, 11, 11, 47] (by decide +kernel) (by
    simp only [List.mem_cons, List.not_mem_nil, or_false, forall_eq_or_imp, forall_eq]
    exact ⟨(by norm_num), (by norm_num), (by norm_num), (by norm_num), (by norm_num)⟩)

theorem prime_409477 : Nat.Prime 409477 :=
  prime_of_pratt 409477 2 [2, 2, 3, 34123] (by decide +kernel) (by
    simp only [List.mem_cons, List.not_mem_nil, or_false, forall_eq_or_imp, forall_eq]
    exact ⟨(by norm_num), (by norm_num), (by norm_num), prime_34123⟩)

theorem prime_14741173 : Nat.Prime 14741173 :=
  prime_of_pratt 14741173 2 [2, 2, 3, 3, 409477] (by decide +kernel) (by
    simp only [List.mem_cons, List.not_mem_nil, or_false, forall_eq_or_imp, forall_eq]
    exact ⟨(by norm_num), (by norm_num), (by norm_num), (by norm_num), prime_409477⟩)

theorem prime_58964693 : Nat.Prime 58964693 :=
  prime_of_pratt 58964693 2 [2, 2, 14741173] (by decide +kernel) (by
    simp only [List.mem_cons, List.not_mem_nil, or_false, forall_eq_or_imp, forall_eq]
    exact ⟨(by norm_num), (by norm_num), prime_14741173⟩)

theorem prime_30703 : Nat.Prime 30703 :=
  prime_of_pratt 30703 3 [2, 3, 7, 17, 43] (by decide +kernel) (by
    simp only [List.mem_cons, List.not_mem_nil, or_false, forall_eq_or_imp, forall_eq]
    exact ⟨(by norm_num), (by norm_num), (by norm_num), (by norm_num), (by norm_num)⟩)

theorem prime_41081 : Nat.Prime 41081 :=
  prime_of_pratt 41081 3 [2, 2, 2, 5, 13, 79] (by decide +kernel) (by
    simp only [List.mem_cons, List.not_mem_nil, or_false, forall_eq_or_imp, forall_eq]
    exact ⟨(by norm_num), (by norm_num), (by norm_num), (by norm_num), (by norm_num), (by norm_num)⟩)

theorem prime_82163 : Nat.Prime 82163 :=
  prime_of_pratt 82163 2 [2, 41081] (by decide +kernel) (by
    simp only [List.mem_cons, List.not_mem_nil, or_false, forall_eq_or_imp, forall_eq]
    exact ⟨(by norm_num), prime_41081⟩)

theorem prime_22111 : Nat.Prime 22111 :=
  prime_of_pratt 22111 6 [2, 3, 5, 11, 67] (by decide +kernel) (by
    simp only [List.mem_cons, List.not_mem_nil, or_false, forall_eq_or_imp, forall_eq]
    exact ⟨(by norm_num), (by norm_num), (by norm_num), (by norm_num), (by norm_num)⟩)

theorem prime_132667 : Nat.Prime 132667 :=
  prime_of_pratt 132667 5 [2, 3, 22111] (by decide +kernel) (by
    simp only [List.mem_cons, List.not_mem_nil, or_false, forall_eq_or_imp, forall_eq]
    exact ⟨(by norm_num), (by norm_num), prime_22111⟩)

theorem prime_17231 : Nat.Prime 17231 :=
  prime_of_pratt 17231 13 [2, 5, 1723] (by decide +kernel) (by
    simp only [List.mem_cons, List.not_mem_nil, or_false, forall_eq_or_imp, forall_eq]
    exact ⟨(by norm_num), (by norm_num), (by norm_num)⟩)

theorem prime_137849 : Nat.Prime 137849 :=
  prime_of_pratt 137849 3 [2, 2, 2, 17231] (by decide +kernel) (by
    simp only [List.mem_cons, List.not_mem_nil, or_false, forall_eq_or_imp, forall_eq]
    exact ⟨(by norm_num), (by norm_num), (by norm_num), prime_17231⟩)

theorem prime_3044861653679985063343 : Nat.Prime 3044861653679985063343 :=
  prime_of_pratt 3044861653679985063343 5 [2, 3, 11, 30703, 82163, 132667, 137849] (by decide +kernel) (by
    simp only [List.mem_cons, List.not_mem_nil, or_false, forall_eq_or_imp, forall_eq]
    exact ⟨(by norm_num), (by norm_num), (by norm_num), prime_30703, prime_82163, prime_132667, prime_137849⟩)

theorem prime_198211423230930754013084525763697 : Nat.Prime 198211423230930754013084525763697 :=
  prime_of_pratt 198211423230930754013084525763697 5 [2, 2, 2, 2, 3, 23, 58964693, 3044861653679985063343] (by decide +kernel) (by
    simp only [List.mem_cons, List.not_mem_nil, or_false, forall_eq_or_imp, forall_eq]
    exact ⟨(by norm_num), (by norm_num), (by norm_num), (by norm_num), (by norm_num), (by norm_num), prime_58964693, prime_3044861653679985063343⟩)

theorem prime_292386187 : Nat.Prime 292386187 :=
  prime_of_pratt 292386187 2 [2, 3, 3, 3, 3, 307, 5879] (by decide +kernel) (by
    simp only [List.mem_cons, List.not_mem_nil, or_false, forall_eq_or_imp, forall_eq]
    exact ⟨(by norm_num), (by norm_num), (by norm_num), (by norm_num), (by norm_num), (by norm_num), (by norm_num)⟩)

theorem prime_213441916511 : Nat.Prime 213441916511 :=
  prime_of_pratt 213441916511 13 [2, 5, 73, 292386187] (by decide +kernel) (by
    simp only [List.mem_cons, List.not_mem_nil, or_false, forall_eq_or_imp, forall_eq]
    exact ⟨(by norm_num), (by norm_num), (by norm_num), prime_292386187⟩)

theorem prime_531581 : Nat.Prime 531581 :=
  prime_of_pratt 531581 2 [2, 2, 5, 7, 3797] (by decide +kernel) (by
    simp only [List.mem_cons, List.not_mem_nil, or_false, forall_eq_or_imp, forall_eq]
    exact ⟨(by norm_num), (by norm_num), (by norm_num), (by norm_num), (by norm_num)⟩)

theorem prime_1224481 : Nat.Prime 1224481 :=
  prime_of_pratt 1224481 13 [2, 2, 2, 2, 2, 3, 5, 2551] (by decide +kernel) (by
    simp only [List.mem_cons, List.not_mem_nil, or_false, forall_eq_or_imp, forall_eq]
    exact ⟨(by norm_num), (by norm_num), (by norm_num), (by norm_num), (by norm_num), (by norm_num), (by norm_num), (by norm_num)⟩)

theorem prime_1257559732178653 : Nat.Prime 1257559732178653 :=
  prime_of_pratt 1257559732178653 2 [2, 2, 3, 7, 23, 531581, 1224481] (by decide +kernel) (by
    simp only [List.mem_cons, List.not_mem_nil, or_false, forall_eq_or_imp, forall_eq]
    exact ⟨(by norm_num), (by norm_num), (by norm_num), (by norm_num), (by norm_num), prime_531581, prime_1224481⟩)

theorem prime_4434155615661930479 : Nat.Prime 4434155615661930479 :=
  prime_of_pratt 4434155615661930479 17 [2, 41, 43, 1257559732178653] (by decide +kernel) (by
    simp only [List.mem_cons, List.not_mem_nil, or_false, forall_eq_or_imp, forall_eq]
    exact ⟨(by norm_num), (by norm_num), (by norm_num), prime_1257559732178653⟩)

theorem prime_172054593956031949258510691 : Nat.Prime 172054593956031949258510691 :=
  prime_of_pratt 172054593956031949258510691 2 [2, 5, 1361, 2851, 4434155615661930479] (by decide +kernel) (by
    simp only [List.mem_cons, List.not_mem_nil, or_false, forall_eq_or_imp, forall_eq]
    exact ⟨(by norm_num), (by norm_num), (by norm_num), (by norm_num), prime_4434155615661930479⟩)

theorem prime_19757330305831588566944191468367130476339 : Nat.Prime 19757330305831588566944191468367130476339 :=
  prime_of_pratt 19757330305831588566944191468367130476339 2 [2, 269, 213441916511, 172054593956031949258510691] (by decide +kernel) (by
    simp only [List.mem_cons, List.not_mem_nil, or_false, forall_eq_or_imp, forall_eq]
    exact ⟨(by norm_num), (by norm_num), prime_213441916511, prime_172054593956031949258510691⟩)

theorem prime_276602624281642239937218680557139826668747 : Nat.Prime 276602624281642239937218680557139826668747 :=
  prime_of_pratt 276602624281642239937218680557139826668747 2 [2, 7, 19757330305831588566944191468367130476339] (by decide +kernel) (by
    simp only [List.mem_cons, List.not_mem_nil, or_false, forall_eq_or_imp, forall_eq]
    exact ⟨(by norm_num), (by norm_num), prime_19757330305831588566944191468367130476339⟩)

theorem prime_7237005577332262213973186563042994240857116359379907606001950938285454250989 : Nat.Prime 7237005577332262213973186563042994240857116359379907606001950938285454250989 :=
  prime_of_pratt 7237005577332262213973186563042994240857116359379907606001950938285454250989 2 [2, 2, 3, 11, 198211423230930754013084525763697, 276602624281642239937218680557139826668747] (by decide +kernel) (by
    simp only [List.mem_cons, List.not_mem_nil, or_false, forall_eq_or_imp, forall_eq]
    exact ⟨(by norm_num), (by norm_num), (by norm_num), (by norm_num), prime_198211423230930754013084525763697, prime_276602624281642239937218680557139826668747⟩)

theorem prime_32573 : Nat.Prime 32573 :=
  prime_of_pratt 32573 2 [2, 2, 17, 479] (by decide +kernel) (by
    simp only [List.mem_cons, List.not_mem_nil, or_false, forall_eq_or_imp, forall_eq]
    exact ⟨(by norm_num), (by norm_num), (by norm_num), (by norm_num)⟩)

theorem prime_65147 : Nat.Prime 65147 :=
  prime_of_pratt 65147 2 [2, 32573] (by decide +kernel) (by
    simp only [List.mem_cons, List.not_mem_nil, or_false, forall_eq_or_imp, forall_eq]
    exact ⟨(by norm_num), prime_32573⟩)

theorem prime_57467 : Nat.Prime 57467 :=
  prime_of_pratt 57467 2 [2, 59, 487] (by decide +kernel) (by
    simp only [List.mem_cons, List.not_mem_nil, or_false, forall_eq_or_imp, forall_eq]
    exact ⟨(by norm_num), (by norm_num), (by norm_num)⟩)

theorem prime_132049 : Nat.Prime 132049 :=
  prime_of_pratt 132049 26 [2, 2, 2, 2, 3, 3, 7, 131] (by decide +kernel) (by
    simp only [List.mem_cons, List.not_mem_nil, or_false, forall_eq_or_imp, forall_eq]
    exact ⟨(by norm_num), (by norm_num), (by norm_num), (by norm_num), (by norm_num), (by norm_num), (by norm_num), (by norm_num)⟩)

theorem prime_1923133 : Nat.Prime 1923133 :=
  prime_of_pratt 1923133 2 [2, 2, 3, 43, 3727] (by decide +kernel) (by
    simp only [List.mem_cons, List.not_mem_nil, or_false, forall_eq_or_imp, forall_eq]
    exact ⟨(by norm_num), (by norm_num), (by norm_num), (by norm_num), (by norm_num)⟩)

theorem prime_430751 : Nat.Prime 430751 :=
  prime_of_pratt 430751 17 [2, 5, 5, 5, 1723] (by decide +kernel) (by
    simp only [List.mem_cons, List.not_mem_nil, or_false, forall_eq_or_imp, forall_eq]
    exact ⟨(by norm_num), (by norm_num), (by norm_num), (by norm_num), (by norm_num)⟩)

theorem prime_31757755568855353 : Nat.Prime 31757755568855353 :=
  prime_of_pratt 31757755568855353 10 [2, 2, 2, 3, 31, 107, 223, 4153, 430751] (by decide +kernel) (by
    simp only [List.mem_cons, List.not_mem_nil, or_false, forall_eq_or_imp, forall_eq]
    exact ⟨(by norm_num), (by norm_num), (by norm_num), (by norm_num), (by norm_num), (by norm_num), (by norm_num), (by norm_num), prime_430751⟩)

theorem prime_37853 : Nat.Prime 37853 :=
  prime_of_pratt 37853 2 [2, 2, 9463] (by decide +kernel) (by
    simp only [List.mem_cons, List.not_mem_nil, or_false, forall_eq_or_imp, forall_eq]
    exact ⟨(by norm_num), (by norm_num), (by norm_num)⟩)

theorem prime_75707 : Nat.Prime 75707 :=
  prime_of_pratt 75707 2 [2, 37853] (by decide +kernel) (by
    simp only [List.mem_cons, List.not_mem_nil, or_false, forall_eq_or_imp, forall_eq]
    exact ⟨(by norm_num), prime_37853⟩)

theorem prime_569003 : Nat.Prime 569003 :=
  prime_of_pratt 569003 2 [2, 7, 97, 419] (by decide +kernel) (by
    simp only [List.mem_cons, List.not_mem_nil, or_false, forall_eq_or_imp, forall_eq]
    exact ⟨(by norm_num), (by norm_num), (by norm_num), (by norm_num)⟩)

theorem prime_2773320623 : Nat.Prime 2773320623 :=
  prime_of_pratt 2773320623 5 [2, 2437, 569003] (by decide +kernel) (by
    simp only [List.mem_cons, List.not_mem_nil, or_false, forall_eq_or_imp, forall_eq]
    exact ⟨(by norm_num), (by norm_num), prime_569003⟩)

theorem prime_72106336199 : Nat.Prime 72106336199 :=
  prime_of_pratt 72106336199 7 [2, 13, 2773320623] (by decide +kernel) (by
    simp only [List.mem_cons, List.not_mem_nil, or_false, forall_eq_or_imp, forall_eq]
    exact ⟨(by norm_num), (by norm_num), prime_2773320623⟩)

theorem prime_8574133 : Nat.Prime 8574133 :=
  prime_of_pratt 8574133 2 [2, 2, 3, 7, 103, 991] (by decide +kernel) (by
    simp only [List.mem_cons, List.not_mem_nil, or_false, forall_eq_or_imp, forall_eq]
    exact ⟨(by norm_num), (by norm_num), (by norm_num), (by norm_num), (by norm_num), (by norm_num)⟩)

theorem prime_1919519569386763 : Nat.Prime 1919519569386763 :=
  prime_of_pratt 1919519569386763 2 [2, 3, 7, 19, 47, 47, 127, 8574133] (by decide +kernel) (by
    simp only [List.mem_cons, List.not_mem_nil, or_false, forall_eq_or_imp, forall_eq]
    exact ⟨(by norm_num), (by norm_num), (by norm_num), (by norm_num), (by norm_num), (by norm_num), (by norm_num), prime_8574133⟩)

theorem prime_75445702479781427272750846543864801 : Nat.Prime 75445702479781427272750846543864801 :=
  prime_of_pratt 75445702479781427272750846543864801 7 [2, 2, 2, 2, 2, 3, 3, 5, 5, 75707, 72106336199, 1919519569386763] (by decide +kernel) (by
    simp only [List.mem_cons, List.not_mem_nil, or_false, forall_eq_or_imp, forall_eq]
    exact ⟨(by norm_num), (by norm_num), (by norm_num), (by norm_num), (by norm_num), (by norm_num), (by norm_num), (by norm_num), (by norm_num), prime_75707, prime_72106336199, prime_1919519569386763⟩)

theorem prime_74058212732561358302231226437062788676166966415465897661863160754340907 : Nat.Prime 74058212732561358302231226437062788676166966415465897661863160754340907 :=
  prime_of_pratt 74058212732561358302231226437062788676166966415465897661863160754340907 2 [2, 3, 353, 57467, 132049, 1923133, 31757755568855353, 75445702479781427272750846543864801] (by decide +kernel) (by
    simp only [List.mem_cons, List.not_mem_nil, or_false, forall_eq_or_imp, forall_eq]
    exact ⟨(by norm_num), (by norm_num), (by norm_num), prime_57467, prime_132049, prime_1923133, prime_31757755568855353, prime_75445702479781427272750846543864801⟩)

theorem prime_57896044618658097711785492504343953926634992332820282019728792003956564819949 : Nat.Prime 57896044618658097711785492504343953926634992332820282019728792003956564819949 :=
  prime_of_pratt 57896044618658097711785492504343953926634992332820282019728792003956564819949 2 [2, 2, 3, 65147, 74058212732561358302231226437062788676166966415465897661863160754340907] (by decide +kernel) (by
    simp only [List.mem_cons, List.not_mem_nil, or_false, forall_eq_or_imp, forall_eq]
    exact ⟨(by norm_num), (by norm_num), (by norm_num), prime_65147, prime_74058212732561358302231226437062788676166966415465897661863160754340907⟩)

/-- The field characteristic, 2^255 - 19. -/
def p : ℕ := 2 ^ 255 - 19

/-- The order of the Ristretto group (ristretto.go:25-27). -/
def l : ℕ := 2 ^ 252 + 27742317777372353535851937790883648493

theorem p_eq : p = 57896044618658097711785492504343953926634992332820282019728792003956564819949 := by
  norm_num [p]

theorem l_eq : l = 7237005577332262213973186563042994240857116359379907606001950938285454250989 := by
  norm_num [l]

theorem p_prime : p.Prime := by
  rw [p_eq]
  exact prime_57896044618658097711785492504343953926634992332820282019728792003956564819949

theorem l_prime : l.Prime := by
  rw [l_eq]
  exact prime_7237005577332262213973186563042994240857116359379907606001950938285454250989

instance : Fact p.Prime := ⟨p_prime⟩
instance : Fact l.Prime := ⟨l_prime⟩

end Ristretto
