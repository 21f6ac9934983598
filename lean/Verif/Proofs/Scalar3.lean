import Verif.Proofs.Scalar2
/-
Scalar reduction: the pieces put together.
-/
namespace Verif.Limb
set_option maxRecDepth 100000
set_option exponentiation.threshold 600

theorem sc_tail (σ τ : Env) (hf : ∀ t ∈ floorPost, t.2.1 ≤ σ t.1 ∧ σ t.1 ≤ t.2.2) (hτ : τ = runExact scReduceLast σ)
    (hl : ∀ t ∈ lastPost, t.2.1 ≤ τ t.1 ∧ τ t.1 ≤ t.2.2) :
    scRange τ ∧ Poly.eval τ (lin21 100 12) = Poly.eval σ (lin21 100 24) % L25519 := by
  have f0 : 0 ≤ σ 100 ∧ σ 100 ≤ 2097151 := hf (100, 0, 2097151) (by decide)
  have f1 : 0 ≤ σ 101 ∧ σ 101 ≤ 2097151 := hf (101, 0, 2097151) (by decide)
  have f2 : 0 ≤ σ 102 ∧ σ 102 ≤ 2097151 := hf (102, 0, 2097151) (by decide)
  have f3 : 0 ≤ σ 103 ∧ σ 103 ≤ 2097151 := hf (103, 0, 2097151) (by decide)
  have f4 : 0 ≤ σ 104 ∧ σ 104 ≤ 2097151 := hf (104, 0, 2097151) (by decide)
  have f5 : 0 ≤ σ 105 ∧ σ 105 ≤ 2097151 := hf (105, 0, 2097151) (by decide)
  have f6 : 0 ≤ σ 106 ∧ σ 106 ≤ 2097151 := hf (106, 0, 2097151) (by decide)
  have f7 : 0 ≤ σ 107 ∧ σ 107 ≤ 2097151 := hf (107, 0, 2097151) (by decide)
  have f8 : 0 ≤ σ 108 ∧ σ 108 ≤ 2097151 := hf (108, 0, 2097151) (by decide)
  have f9 : 0 ≤ σ 109 ∧ σ 109 ≤ 2097151 := hf (109, 0, 2097151) (by decide)
  have f10 : 0 ≤ σ 110 ∧ σ 110 ≤ 2097151 := hf (110, 0, 2097151) (by decide)
  have f11 : 0 ≤ σ 111 ∧ σ 111 ≤ 2097151 := hf (111, 0, 2097151) (by decide)
  have f12 : -1 ≤ σ 112 ∧ σ 112 ≤ 0 := hf (112, -1, 0) (by decide)
  have f13 : 0 ≤ σ 113 ∧ σ 113 ≤ 0 := hf (113, 0, 0) (by decide)
  have f14 : 0 ≤ σ 114 ∧ σ 114 ≤ 0 := hf (114, 0, 0) (by decide)
  have f15 : 0 ≤ σ 115 ∧ σ 115 ≤ 0 := hf (115, 0, 0) (by decide)
  have f16 : 0 ≤ σ 116 ∧ σ 116 ≤ 0 := hf (116, 0, 0) (by decide)
  have f17 : 0 ≤ σ 117 ∧ σ 117 ≤ 0 := hf (117, 0, 0) (by decide)
  have f18 : 0 ≤ σ 118 ∧ σ 118 ≤ 0 := hf (118, 0, 0) (by decide)
  have f19 : 0 ≤ σ 119 ∧ σ 119 ≤ 0 := hf (119, 0, 0) (by decide)
  have f20 : 0 ≤ σ 120 ∧ σ 120 ≤ 0 := hf (120, 0, 0) (by decide)
  have f21 : 0 ≤ σ 121 ∧ σ 121 ≤ 0 := hf (121, 0, 0) (by decide)
  have f22 : 0 ≤ σ 122 ∧ σ 122 ≤ 0 := hf (122, 0, 0) (by decide)
  have f23 : 0 ≤ σ 123 ∧ σ 123 ≤ 0 := hf (123, 0, 0) (by decide)
  have l0 : 0 ≤ τ 100 ∧ τ 100 ≤ 2097151 := hl (100, 0, 2097151) (by decide)
  have l1 : 0 ≤ τ 101 ∧ τ 101 ≤ 2097151 := hl (101, 0, 2097151) (by decide)
  have l2 : 0 ≤ τ 102 ∧ τ 102 ≤ 2097151 := hl (102, 0, 2097151) (by decide)
  have l3 : 0 ≤ τ 103 ∧ τ 103 ≤ 2097151 := hl (103, 0, 2097151) (by decide)
  have l4 : 0 ≤ τ 104 ∧ τ 104 ≤ 2097151 := hl (104, 0, 2097151) (by decide)
  have l5 : 0 ≤ τ 105 ∧ τ 105 ≤ 2097151 := hl (105, 0, 2097151) (by decide)
  have l6 : 0 ≤ τ 106 ∧ τ 106 ≤ 2097151 := hl (106, 0, 2097151) (by decide)
  have l7 : 0 ≤ τ 107 ∧ τ 107 ≤ 2097151 := hl (107, 0, 2097151) (by decide)
  have l8 : 0 ≤ τ 108 ∧ τ 108 ≤ 2097151 := hl (108, 0, 2097151) (by decide)
  have l9 : 0 ≤ τ 109 ∧ τ 109 ≤ 2097151 := hl (109, 0, 2097151) (by decide)
  have l10 : 0 ≤ τ 110 ∧ τ 110 ≤ 2097151 := hl (110, 0, 2097151) (by decide)
  have l11 : -1 ≤ τ 111 ∧ τ 111 ≤ 2097152 := hl (111, -1, 2097152) (by decide)
  clear hf hl
  have hw := Int.zero_dvd.1 (wp_sound 0 _ _ _ σ last_wp)
  have hm : Poly.eval σ [(113, -27742317777372353535851937790883648493)] = -27742317777372353535851937790883648493 * σ 112 := by
    show _ * mono σ (112 + 1) + 0 = _
    rw [mono_var σ 112 (by omega)]; omega
  rw [append_eval, hm, ← hτ] at hw
  have hL : ((L25519 : Nat) : Int) = 2 ^ 252 + 27742317777372353535851937790883648493 := rfl
  have e24 := lin21_100_24 σ
  have e12 := lin21_100_12 σ
  have t12 := lin21_100_12 τ
  rw [show σ 113 = 0 by omega] at e24
  rw [show σ 114 = 0 by omega] at e24
  rw [show σ 115 = 0 by omega] at e24
  rw [show σ 116 = 0 by omega] at e24
  rw [show σ 117 = 0 by omega] at e24
  rw [show σ 118 = 0 by omega] at e24
  rw [show σ 119 = 0 by omega] at e24
  rw [show σ 120 = 0 by omega] at e24
  rw [show σ 121 = 0 by omega] at e24
  rw [show σ 122 = 0 by omega] at e24
  rw [show σ 123 = 0 by omega] at e24
  generalize Poly.eval σ (lin21 100 24) = V3 at *
  generalize Poly.eval σ (lin21 100 12) = W3 at *
  generalize Poly.eval τ (lin21 100 12) = V4 at *
  have hV3 : V3 = W3 + 2 ^ 252 * σ 112 := by omega
  have hW : 0 ≤ W3 ∧ W3 < 2 ^ 252 := by omega
  have hV4 : 0 ≤ V4 ∧ V4 < L25519 := by rw [hL]; omega
  constructor
  · have : 0 ≤ τ 111 := by omega
    exact ⟨l0, l1, l2, l3, l4, l5, l6, l7, l8, l9, l10, this, l11.2⟩
  · symm
    have hq : V3 = V4 + L25519 * σ 112 := by rw [hL]; omega
    rw [hq, Int.add_mul_emod_self_left, Int.emod_eq_of_lt hV4.1 hV4.2]

theorem placeL_get (x : Nat) (l : List Int) (ρ : Env) (i : Nat) (hi : i < l.length) : placeL x l ρ (x + i) = l[i] := by
  simp only [placeL]
  rw [if_pos (by omega), Nat.add_sub_cancel_left, List.getD_eq_getElem?_getD, List.getElem?_eq_getElem hi]
  rfl

theorem placeL_byte {x : Nat} {l : List Int} (hl : areBytes l) (ρ : Env) (i : Nat) (h1 : x ≤ i) (h2 : i < x + l.length) :
    0 ≤ placeL x l ρ i ∧ placeL x l ρ i < 256 := by
  have := placeL_get x l ρ (i - x) (by omega)
  rw [show x + (i - x) = i by omega] at this
  rw [this]
  exact hl _ (List.getElem_mem _)

theorem leVal_append (l m : List Int) : leVal (l ++ m) = leVal l + 256 ^ l.length * leVal m := by
  induction l with
  | nil => simp [leVal]
  | cons b l ih => simp only [List.cons_append, leVal, ih, List.length_cons, Int.pow_succ]; grind

theorem leVal32 (ρ : Env) (x : Nat) : leVal (ρ.list x 32) =
    2 ^ 0 * ρ x + 2 ^ 8 * ρ (x + 1) + 2 ^ 16 * ρ (x + 2) + 2 ^ 24 * ρ (x + 3) + 2 ^ 32 * ρ (x + 4) + 2 ^ 40 * ρ (x + 5) + 2 ^ 48 * ρ (x + 6) + 2 ^ 56 * ρ (x + 7) + 2 ^ 64 * ρ (x + 8) + 2 ^ 72 * ρ (x + 9) + 2 ^ 80 * ρ (x + 10) + 2 ^ 88 * ρ (x + 11) + 2 ^ 96 * ρ (x + 12) + 2 ^ 104 * ρ (x + 13) + 2 ^ 112 * ρ (x + 14) + 2 ^ 120 * ρ (x + 15) + 2 ^ 128 * ρ (x + 16) + 2 ^ 136 * ρ (x + 17) + 2 ^ 144 * ρ (x + 18) + 2 ^ 152 * ρ (x + 19) + 2 ^ 160 * ρ (x + 20) + 2 ^ 168 * ρ (x + 21) + 2 ^ 176 * ρ (x + 22) + 2 ^ 184 * ρ (x + 23) + 2 ^ 192 * ρ (x + 24) + 2 ^ 200 * ρ (x + 25) + 2 ^ 208 * ρ (x + 26) + 2 ^ 216 * ρ (x + 27) + 2 ^ 224 * ρ (x + 28) + 2 ^ 232 * ρ (x + 29) + 2 ^ 240 * ρ (x + 30) + 2 ^ 248 * ρ (x + 31) := by
  have hl : List.range 32 = [0, 1, 2, 3, 4, 5, 6, 7, 8, 9, 10, 11, 12, 13, 14, 15, 16, 17, 18, 19, 20, 21, 22, 23, 24, 25, 26, 27, 28, 29, 30, 31] := by decide
  rw [Env.list, hl]
  simp only [List.map, leVal, Nat.add_zero]
  omega

theorem list_placeL (x : Nat) (l : List Int) (ρ : Env) (n : Nat) (h : l.length = n) : (placeL x l ρ).list x n = l := by
  apply List.ext_getElem
  · simp [Env.list, h]
  · intro i h1 h2
    simp only [Env.list, List.getElem_map, List.getElem_range]
    exact placeL_get x l ρ i h2

theorem env_list_congr (ρ σ : Env) (x n : Nat) (h : ∀ i, i < n → ρ (x + i) = σ (x + i)) : ρ.list x n = σ.list x n := by
  apply List.map_congr_left
  intro i hi
  exact h i (List.mem_range.1 hi)

theorem leVal64 (ρ : Env) : leVal (ρ.list 0 64) = leVal (ρ.list 0 32) + 2 ^ 256 * leVal (ρ.list 32 32) := by
  have : ρ.list 0 64 = ρ.list 0 32 ++ ρ.list 32 32 := by
    simp only [Env.list]
    rw [show (64 : Nat) = 32 + 32 from rfl, List.range_add, List.map_append, List.map_map]
    congr 1
  have hl : (ρ.list 0 32).length = 32 := by simp [Env.list]
  have hp : (256 : Int) ^ 32 = 2 ^ 256 := by decide
  rw [this, leVal_append, hl, hp]

theorem split3 (a b c d : Prog) (ρ : Env) : runExact (a ++ (b ++ (c ++ d))) ρ = runExact d (runExact (a ++ (b ++ c)) ρ) := by
  simp only [runExact_append]

/-- `ScReduce` returns the canonical 32-byte encoding of its input modulo the group order. -/
theorem scReduce_all (s : List Int) (hl : s.length = 64) (hb : areBytes s) :
    safeRun (scReduceLoad ++ (scReduceFold ++ (scReduceFloor ++ scReduceLast))) (placeL 0 s zeroEnv) ∧
    (scReduce s).length = 32 ∧ areBytes (scReduce s) ∧ leVal (scReduce s) = leVal s % L25519 := by
  have hok : (bytesBd 0 64).ok (placeL 0 s zeroEnv) := by
    apply Bd.ok_of_all
    have := bytesBd_all (x := 0) hb zeroEnv
    rwa [hl] at this
  obtain ⟨g1, g2, g3⟩ := boundsAll_sound hok red_floor
  obtain ⟨h1, h2, h3⟩ := boundsAll_sound hok red_last
  have hbytes : ∀ i, i < 64 → 0 ≤ placeL 0 s zeroEnv i ∧ placeL 0 s zeroEnv i < 256 :=
    fun i hi => placeL_byte hb zeroEnv i (by omega) (by omega)
  have hlist : (placeL 0 s zeroEnv).list 0 64 = s := list_placeL 0 s zeroEnv 64 hl
  have hdef : scReduce s = (run scReduceP (placeL 0 s zeroEnv)).list 64 32 := rfl
  generalize placeL 0 s zeroEnv = ρ at *
  have hs := split3 scReduceLoad scReduceFold scReduceFloor scReduceLast ρ
  rw [← g1, ← h1] at hs
  obtain ⟨k1, k2⟩ := sc_tail _ _ g2 hs h2
  have hrun : run scReduceP ρ = run scReducePack
      (run (scReduceLoad ++ (scReduceFold ++ (scReduceFloor ++ scReduceLast))) ρ) := by
    rw [← run_append]; simp only [scReduceP, List.append_assoc]
  rw [hdef, hrun]
  refine ⟨h3, by simp [Env.list], sc_areBytes _ k1, ?_⟩
  rw [sc_pack_val _ k1, k2]
  apply cong_mod
  -- floor carries
  have c1 := Int.zero_dvd.1 (wp_sound 0 _ _ _ (runExact (scReduceLoad ++ scReduceFold) ρ) floor_wp)
  rw [← runExact_append, List.append_assoc, ← g1] at c1
  -- folds
  obtain ⟨q, hq, hc⟩ := norm_cong (b := some (Poly.scale L25519 1 (lin21 100 24))) red_fold_wp rfl
  have c2 := wp_sound L25519 _ _ q (runExact scReduceLoad ρ) hq
  rw [← runExact_append] at c2
  have c3 := (c2.trans (hc _)).trans (scale_eval L25519 _ 1 _)
  rw [Int.one_mul, scLoad_val ρ hbytes] at c3
  have c4 : Poly.eval (run (scReduceLoad ++ (scReduceFold ++ scReduceFloor)) ρ) (lin21 100 24)
    = Poly.eval (runExact (scReduceLoad ++ scReduceFold) ρ) (lin21 100 24) := by omega
  rw [c4]
  refine c3.trans (Cong.of_eq ?_)
  rw [← hlist, leVal64, leVal32, leVal32]
  simp only [Nat.zero_add, Nat.reduceAdd]
  omega

/-- Three operands in place. -/
def env3 (a b c : List Int) : Env := placeL 0 a (placeL 32 b (placeL 160 c zeroEnv))

theorem placeL_other (x : Nat) (l : List Int) (ρ : Env) (i : Nat) (h : i < x ∨ x + l.length ≤ i) : placeL x l ρ i = ρ i := by
  simp only [placeL]
  rw [if_neg (by omega)]

theorem env3_a (a b c : List Int) (ha : a.length = 32) : (env3 a b c).list 0 32 = a := list_placeL 0 a _ 32 ha
theorem env3_b (a b c : List Int) (ha : a.length = 32) (hb : b.length = 32) : (env3 a b c).list 32 32 = b := by
  rw [env3, env_list_congr _ (placeL 32 b (placeL 160 c zeroEnv)) 32 32 fun i _ => placeL_other _ _ _ _ (by omega)]
  exact list_placeL 32 b _ 32 hb
theorem env3_c (a b c : List Int) (ha : a.length = 32) (hb : b.length = 32) (hc : c.length = 32) :
    (env3 a b c).list 160 32 = c := by
  rw [env3, env_list_congr _ (placeL 160 c zeroEnv) 160 32 fun i _ => by
    rw [placeL_other _ _ _ _ (by omega), placeL_other _ _ _ _ (by omega)]]
  exact list_placeL 160 c _ 32 hc

theorem list_bytes {ρ : Env} {x : Nat} {l : List Int} (h : ρ.list x 32 = l) (hb : areBytes l) (i : Nat) (h1 : x ≤ i)
    (h2 : i < x + 32) : 0 ≤ ρ i ∧ ρ i < 256 := by
  apply hb
  rw [← h]
  simp only [Env.list, List.mem_map, List.mem_range]
  exact ⟨i - x, by omega, by congr 1; omega⟩

theorem bytesBd_env {ρ : Env} {x n : Nat} (h : ∀ i, x ≤ i → i < x + n → 0 ≤ ρ i ∧ ρ i < 256) :
    ∀ p ∈ bytesBd x n, p.2.1 ≤ ρ p.1 ∧ ρ p.1 ≤ p.2.2 := by
  intro p hp
  simp only [bytesBd, List.mem_map, List.mem_range] at hp
  obtain ⟨i, hi, rfl⟩ := hp
  have := h (x + i) (by omega) (by omega)
  simp only
  omega

/-- `ScMulAdd` returns the canonical 32-byte encoding of `a*b + c` modulo the group order. -/
theorem scMulAdd_all (a b c : List Int) (la : a.length = 32) (lb : b.length = 32) (lc : c.length = 32) (ba : areBytes a)
    (bb : areBytes b) (bc : areBytes c) :
    safeRun (scMulAddLoad ++ (scMulAddProd ++ (scMulAddFold ++ (scReduceFloor ++ scReduceLast)))) (env3 a b c) ∧
    (scMulAdd a b c).length = 32 ∧ areBytes (scMulAdd a b c) ∧
      leVal (scMulAdd a b c) = (leVal a * leVal b + leVal c) % L25519 := by
  have ea := env3_a a b c la
  have eb := env3_b a b c la lb
  have ec := env3_c a b c la lb lc
  have ha := list_bytes ea ba
  have hb := list_bytes eb bb
  have hc := list_bytes ec bc
  have hdef : scMulAdd a b c = (run scMulAddP (env3 a b c)).list 64 32 := rfl
  generalize env3 a b c = ρ at *
  have hok : (bytesBd 0 32 ++ (bytesBd 32 32 ++ bytesBd 160 32)).ok ρ := by
    apply Bd.ok_of_all
    intro p hp
    rcases List.mem_append.1 hp with hp | hp
    · exact bytesBd_env ha p hp
    rcases List.mem_append.1 hp with hp | hp
    · exact bytesBd_env hb p hp
    · exact bytesBd_env hc p hp
  obtain ⟨g1, g2, g3⟩ := boundsAll_sound hok ma_floor
  obtain ⟨h1, h2, h3⟩ := boundsAll_sound hok ma_last
  have hs : runExact (scMulAddLoad ++ (scMulAddProd ++ (scMulAddFold ++ (scReduceFloor ++ scReduceLast)))) ρ
      = runExact scReduceLast (runExact (scMulAddLoad ++ (scMulAddProd ++ (scMulAddFold ++ scReduceFloor))) ρ) := by
    simp only [runExact_append]
  rw [← g1, ← h1] at hs
  obtain ⟨k1, k2⟩ := sc_tail _ _ g2 hs h2
  have hrun : run scMulAddP ρ = run scReducePack
      (run (scMulAddLoad ++ (scMulAddProd ++ (scMulAddFold ++ (scReduceFloor ++ scReduceLast)))) ρ) := by
    rw [← run_append]; simp only [scMulAddP, List.append_assoc, floor_same, last_same, pack_same]
  rw [hdef, hrun]
  refine ⟨h3, by simp [Env.list], sc_areBytes _ k1, ?_⟩
  rw [sc_pack_val _ k1, k2]
  apply cong_mod
  have c1 := Int.zero_dvd.1 (wp_sound 0 _ _ _ (runExact (scMulAddLoad ++ (scMulAddProd ++ scMulAddFold)) ρ) floor_wp)
  rw [← runExact_append, List.append_assoc, List.append_assoc, ← g1] at c1
  obtain ⟨q, hq, hcq⟩ := norm_cong (b := some (Poly.scale L25519 1 (lin21 100 24))) ma_fold_wp rfl
  have c2 := wp_sound L25519 _ _ q (runExact (scMulAddLoad ++ scMulAddProd) ρ) hq
  rw [← runExact_append, List.append_assoc] at c2
  have c3 := (c2.trans (hcq _)).trans (scale_eval L25519 _ 1 _)
  rw [Int.one_mul] at c3
  have c4 : Poly.eval (run (scMulAddLoad ++ (scMulAddProd ++ (scMulAddFold ++ scReduceFloor))) ρ) (lin21 100 24)
    = Poly.eval (runExact (scMulAddLoad ++ (scMulAddProd ++ scMulAddFold)) ρ) (lin21 100 24) := by omega
  rw [c4]
  refine c3.trans (Cong.of_eq ?_)
  -- products
  obtain ⟨r, hr⟩ := Option.isSome_iff_exists.1 prod_some
  have hp := prod_wp
  rw [hr] at hp
  obtain ⟨q2, hq2, hcq2⟩ := norm_cong (b := some (Poly.add 0 (lin21 224 12) r)) hp rfl
  have d1 := Int.zero_dvd.1 (wp_sound 0 _ _ q2 (runExact scMulAddLoad ρ) hq2)
  have d2 := Int.zero_dvd.1 (hcq2 (runExact scMulAddLoad ρ))
  have d3 := Int.zero_dvd.1 (add_eval 0 (runExact scMulAddLoad ρ) (lin21 224 12) r)
  have d4 := Int.zero_dvd.1 (mul_eval 0 (runExact scMulAddLoad ρ) _ _ r hr)
  rw [← runExact_append] at d1
  have va : Poly.eval (runExact scMulAddLoad ρ) (lin21 200 12) = leVal a := by
    rw [maLoada_val ρ ha, ← ea, leVal32]
  have vb : Poly.eval (runExact scMulAddLoad ρ) (lin21 212 12) = leVal b := by
    rw [maLoadb_val ρ hb, ← eb, leVal32]
  have vc : Poly.eval (runExact scMulAddLoad ρ) (lin21 224 12) = leVal c := by
    rw [maLoadc_val ρ hc, ← ec, leVal32]
  rw [va, vb] at d4
  rw [vc] at d3
  generalize leVal a * leVal b = ab at *
  omega

end Verif.Limb
