import Mathlib.NumberTheory.LucasPrimality
import Mathlib.Tactic.NormNum.Prime
import Verif.Spec.Scalar
/-
The field's characteristic 2^255 - 19 and the order of the base point are prime: Pratt certificates, checked by the
kernel with Lucas's criterion.
-/
namespace Verif.Limb

/-- `b ^ e mod m` by squaring, `k` an upper bound on the number of bits of `e`. -/
def powMod (m : Nat) : Nat → Nat → Nat → Nat
  | 0, _, _ => 1 % m
  | k + 1, b, e => if e % 2 = 1 then b * powMod m k (b * b % m) (e / 2) % m else powMod m k (b * b % m) (e / 2)

theorem powMod_eq (m : Nat) : ∀ (k b e : Nat), e < 2 ^ k → powMod m k b e = b ^ e % m
  | 0, b, e, h => by
    have : e = 0 := by simpa using h
    subst this; simp [powMod]
  | k + 1, b, e, h => by
    have ih := powMod_eq m k (b * b % m) (e / 2) (by rw [Nat.pow_succ] at h; omega)
    have e2 : (b * b) ^ (e / 2) = b ^ (2 * (e / 2)) := by rw [← Nat.pow_two, ← Nat.pow_mul]
    simp only [powMod]
    rw [ih, ← Nat.pow_mod, e2]
    split
    · next h1 =>
      have he : 2 * (e / 2) + 1 = e := by omega
      rw [Nat.mul_mod, Nat.mod_mod, ← Nat.mul_mod, ← Nat.pow_succ', Nat.succ_eq_add_one, he]
    · next h1 =>
      have he : 2 * (e / 2) = e := by omega
      rw [he]

/-- The certificate: `a` has order `n - 1` modulo `n`, given the prime factors `fs` of `n - 1`. -/
def lucasCert (n a k : Nat) (fs : List (Nat × Nat)) : Bool :=
  decide (1 < n) && decide (n - 1 < 2 ^ k) && decide ((fs.map fun f => f.1 ^ f.2).prod = n - 1) && decide (powMod n k a (n - 1) = 1)
    && fs.all fun f => decide (powMod n k a ((n - 1) / f.1) ≠ 1)

theorem prime_dvd_prod {q : Nat} (hq : q.Prime) : ∀ {fs : List (Nat × Nat)}, (∀ f ∈ fs, f.1.Prime) →
    q ∣ (fs.map fun f => f.1 ^ f.2).prod → ∃ f ∈ fs, q = f.1
  | [], _, h => by simp at h; exact absurd h hq.one_lt.ne'
  | f :: fs, hp, h => by
    rw [List.map_cons, List.prod_cons] at h
    rcases hq.dvd_mul.1 h with h | h
    · exact ⟨f, List.mem_cons_self .., (Nat.prime_dvd_prime_iff_eq hq (hp f (List.mem_cons_self ..))).1 (hq.dvd_of_dvd_pow h)⟩
    · obtain ⟨g, hg, e⟩ := prime_dvd_prod hq (fun f hf => hp f (List.mem_cons_of_mem _ hf)) h
      exact ⟨g, List.mem_cons_of_mem _ hg, e⟩

theorem prime_of_cert (n a k : Nat) (fs : List (Nat × Nat)) (hp : ∀ f ∈ fs, f.1.Prime) (h : lucasCert n a k fs = true) :
    n.Prime := by
  simp only [lucasCert, Bool.and_eq_true, decide_eq_true_eq, List.all_eq_true] at h
  obtain ⟨⟨⟨⟨h0, h1⟩, h2⟩, h3⟩, h4⟩ := h
  have tr : ∀ e, e ≤ n - 1 → ((a : ZMod n) ^ e = 1 ↔ powMod n k a e = 1) := by
    intro e he
    rw [powMod_eq n k a e (by omega)]
    rw [← Nat.cast_pow, ← Nat.cast_one, ZMod.natCast_eq_natCast_iff']
    rw [Nat.mod_eq_of_lt h0]
  refine lucas_primality n (a : ZMod n) ((tr _ (Nat.le_refl _)).2 h3) ?_
  intro q hq hd
  rw [← h2] at hd
  obtain ⟨f, hf, rfl⟩ := prime_dvd_prod hq hp hd
  intro hc
  exact h4 f hf ((tr _ (Nat.div_le_self _ _)).1 hc)

theorem prime_1923133 : Nat.Prime 1923133 := by
  refine prime_of_cert _ 2 21 [(2, 2), (3, 1), (43, 1), (3727, 1)] ?_ (by decide +kernel)
  simp only [List.mem_cons, List.not_mem_nil, or_false]
  rintro f (rfl | rfl | rfl | rfl)
  · norm_num
  · norm_num
  · norm_num
  · norm_num

theorem prime_31757755568855353 : Nat.Prime 31757755568855353 := by
  refine prime_of_cert _ 10 55 [(2, 3), (3, 1), (31, 1), (107, 1), (223, 1), (4153, 1), (430751, 1)] ?_ (by decide +kernel)
  simp only [List.mem_cons, List.not_mem_nil, or_false]
  rintro f (rfl | rfl | rfl | rfl | rfl | rfl | rfl)
  · norm_num
  · norm_num
  · norm_num
  · norm_num
  · norm_num
  · norm_num
  · norm_num

theorem prime_2773320623 : Nat.Prime 2773320623 := by
  refine prime_of_cert _ 5 32 [(2, 1), (2437, 1), (569003, 1)] ?_ (by decide +kernel)
  simp only [List.mem_cons, List.not_mem_nil, or_false]
  rintro f (rfl | rfl | rfl)
  · norm_num
  · norm_num
  · norm_num

theorem prime_72106336199 : Nat.Prime 72106336199 := by
  refine prime_of_cert _ 7 37 [(2, 1), (13, 1), (2773320623, 1)] ?_ (by decide +kernel)
  simp only [List.mem_cons, List.not_mem_nil, or_false]
  rintro f (rfl | rfl | rfl)
  · norm_num
  · norm_num
  · exact prime_2773320623

theorem prime_8574133 : Nat.Prime 8574133 := by
  refine prime_of_cert _ 2 24 [(2, 2), (3, 1), (7, 1), (103, 1), (991, 1)] ?_ (by decide +kernel)
  simp only [List.mem_cons, List.not_mem_nil, or_false]
  rintro f (rfl | rfl | rfl | rfl | rfl)
  · norm_num
  · norm_num
  · norm_num
  · norm_num
  · norm_num

theorem prime_1919519569386763 : Nat.Prime 1919519569386763 := by
  refine prime_of_cert _ 2 51 [(2, 1), (3, 1), (7, 1), (19, 1), (47, 2), (127, 1), (8574133, 1)] ?_ (by decide +kernel)
  simp only [List.mem_cons, List.not_mem_nil, or_false]
  rintro f (rfl | rfl | rfl | rfl | rfl | rfl | rfl)
  · norm_num
  · norm_num
  · norm_num
  · norm_num
  · norm_num
  · norm_num
  · exact prime_8574133

theorem prime_75445702479781427272750846543864801 : Nat.Prime 75445702479781427272750846543864801 := by
  refine prime_of_cert _ 7 116 [(2, 5), (3, 2), (5, 2), (75707, 1), (72106336199, 1), (1919519569386763, 1)] ?_ (by decide +kernel)
  simp only [List.mem_cons, List.not_mem_nil, or_false]
  rintro f (rfl | rfl | rfl | rfl | rfl | rfl)
  · norm_num
  · norm_num
  · norm_num
  · norm_num
  · exact prime_72106336199
  · exact prime_1919519569386763

theorem prime_74058212732561358302231226437062788676166966415465897661863160754340907 : Nat.Prime 74058212732561358302231226437062788676166966415465897661863160754340907 := by
  refine prime_of_cert _ 2 236 [(2, 1), (3, 1), (353, 1), (57467, 1), (132049, 1), (1923133, 1), (31757755568855353, 1), (75445702479781427272750846543864801, 1)] ?_ (by decide +kernel)
  simp only [List.mem_cons, List.not_mem_nil, or_false]
  rintro f (rfl | rfl | rfl | rfl | rfl | rfl | rfl | rfl)
  · norm_num
  · norm_num
  · norm_num
  · norm_num
  · norm_num
  · exact prime_1923133
  · exact prime_31757755568855353
  · exact prime_75445702479781427272750846543864801

theorem prime_P25519 : Nat.Prime P25519 := by
  refine prime_of_cert _ 2 255 [(2, 2), (3, 1), (65147, 1), (74058212732561358302231226437062788676166966415465897661863160754340907, 1)] ?_ (by decide +kernel)
  simp only [List.mem_cons, List.not_mem_nil, or_false]
  rintro f (rfl | rfl | rfl | rfl)
  · norm_num
  · norm_num
  · norm_num
  · exact prime_74058212732561358302231226437062788676166966415465897661863160754340907

theorem prime_14741173 : Nat.Prime 14741173 := by
  refine prime_of_cert _ 2 24 [(2, 2), (3, 2), (409477, 1)] ?_ (by decide +kernel)
  simp only [List.mem_cons, List.not_mem_nil, or_false]
  rintro f (rfl | rfl | rfl)
  · norm_num
  · norm_num
  · norm_num

theorem prime_58964693 : Nat.Prime 58964693 := by
  refine prime_of_cert _ 2 26 [(2, 2), (14741173, 1)] ?_ (by decide +kernel)
  simp only [List.mem_cons, List.not_mem_nil, or_false]
  rintro f (rfl | rfl)
  · norm_num
  · exact prime_14741173

theorem prime_3044861653679985063343 : Nat.Prime 3044861653679985063343 := by
  refine prime_of_cert _ 5 72 [(2, 1), (3, 1), (11, 1), (30703, 1), (82163, 1), (132667, 1), (137849, 1)] ?_ (by decide +kernel)
  simp only [List.mem_cons, List.not_mem_nil, or_false]
  rintro f (rfl | rfl | rfl | rfl | rfl | rfl | rfl)
  · norm_num
  · norm_num
  · norm_num
  · norm_num
  · norm_num
  · norm_num
  · norm_num

theorem prime_198211423230930754013084525763697 : Nat.Prime 198211423230930754013084525763697 := by
  refine prime_of_cert _ 5 108 [(2, 4), (3, 1), (23, 1), (58964693, 1), (3044861653679985063343, 1)] ?_ (by decide +kernel)
  simp only [List.mem_cons, List.not_mem_nil, or_false]
  rintro f (rfl | rfl | rfl | rfl | rfl)
  · norm_num
  · norm_num
  · norm_num
  · exact prime_58964693
  · exact prime_3044861653679985063343

theorem prime_292386187 : Nat.Prime 292386187 := by
  refine prime_of_cert _ 2 29 [(2, 1), (3, 4), (307, 1), (5879, 1)] ?_ (by decide +kernel)
  simp only [List.mem_cons, List.not_mem_nil, or_false]
  rintro f (rfl | rfl | rfl | rfl)
  · norm_num
  · norm_num
  · norm_num
  · norm_num

theorem prime_213441916511 : Nat.Prime 213441916511 := by
  refine prime_of_cert _ 13 38 [(2, 1), (5, 1), (73, 1), (292386187, 1)] ?_ (by decide +kernel)
  simp only [List.mem_cons, List.not_mem_nil, or_false]
  rintro f (rfl | rfl | rfl | rfl)
  · norm_num
  · norm_num
  · norm_num
  · exact prime_292386187

theorem prime_1224481 : Nat.Prime 1224481 := by
  refine prime_of_cert _ 13 21 [(2, 5), (3, 1), (5, 1), (2551, 1)] ?_ (by decide +kernel)
  simp only [List.mem_cons, List.not_mem_nil, or_false]
  rintro f (rfl | rfl | rfl | rfl)
  · norm_num
  · norm_num
  · norm_num
  · norm_num

theorem prime_1257559732178653 : Nat.Prime 1257559732178653 := by
  refine prime_of_cert _ 2 51 [(2, 2), (3, 1), (7, 1), (23, 1), (531581, 1), (1224481, 1)] ?_ (by decide +kernel)
  simp only [List.mem_cons, List.not_mem_nil, or_false]
  rintro f (rfl | rfl | rfl | rfl | rfl | rfl)
  · norm_num
  · norm_num
  · norm_num
  · norm_num
  · norm_num
  · exact prime_1224481

theorem prime_4434155615661930479 : Nat.Prime 4434155615661930479 := by
  refine prime_of_cert _ 17 62 [(2, 1), (41, 1), (43, 1), (1257559732178653, 1)] ?_ (by decide +kernel)
  simp only [List.mem_cons, List.not_mem_nil, or_false]
  rintro f (rfl | rfl | rfl | rfl)
  · norm_num
  · norm_num
  · norm_num
  · exact prime_1257559732178653

theorem prime_172054593956031949258510691 : Nat.Prime 172054593956031949258510691 := by
  refine prime_of_cert _ 2 88 [(2, 1), (5, 1), (1361, 1), (2851, 1), (4434155615661930479, 1)] ?_ (by decide +kernel)
  simp only [List.mem_cons, List.not_mem_nil, or_false]
  rintro f (rfl | rfl | rfl | rfl | rfl)
  · norm_num
  · norm_num
  · norm_num
  · norm_num
  · exact prime_4434155615661930479

theorem prime_19757330305831588566944191468367130476339 : Nat.Prime 19757330305831588566944191468367130476339 := by
  refine prime_of_cert _ 2 134 [(2, 1), (269, 1), (213441916511, 1), (172054593956031949258510691, 1)] ?_ (by decide +kernel)
  simp only [List.mem_cons, List.not_mem_nil, or_false]
  rintro f (rfl | rfl | rfl | rfl)
  · norm_num
  · norm_num
  · exact prime_213441916511
  · exact prime_172054593956031949258510691

theorem prime_276602624281642239937218680557139826668747 : Nat.Prime 276602624281642239937218680557139826668747 := by
  refine prime_of_cert _ 2 138 [(2, 1), (7, 1), (19757330305831588566944191468367130476339, 1)] ?_ (by decide +kernel)
  simp only [List.mem_cons, List.not_mem_nil, or_false]
  rintro f (rfl | rfl | rfl)
  · norm_num
  · norm_num
  · exact prime_19757330305831588566944191468367130476339

theorem prime_L25519 : Nat.Prime L25519 := by
  refine prime_of_cert _ 2 253 [(2, 2), (3, 1), (11, 1), (198211423230930754013084525763697, 1), (276602624281642239937218680557139826668747, 1)] ?_ (by decide +kernel)
  simp only [List.mem_cons, List.not_mem_nil, or_false]
  rintro f (rfl | rfl | rfl | rfl | rfl)
  · norm_num
  · norm_num
  · norm_num
  · exact prime_198211423230930754013084525763697
  · exact prime_276602624281642239937218680557139826668747

end Verif.Limb
