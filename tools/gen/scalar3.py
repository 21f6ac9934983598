out='''import Verif.Proofs.Scalar2
/-
Scalar reduction: the pieces put together.
-/
namespace Verif.Limb
set_option maxRecDepth 100000
set_option exponentiation.threshold 600

theorem sc_tail (σ τ : Env) (hf : ∀ t ∈ floorPost, t.2.1 ≤ σ t.1 ∧ σ t.1 ≤ t.2.2) (hτ : τ = runExact scReduceLast σ)
    (hl : ∀ t ∈ lastPost, t.2.1 ≤ τ t.1 ∧ τ t.1 ≤ t.2.2) :
    scRange τ ∧ Poly.eval τ (lin21 100 12) = Poly.eval σ (lin21 100 24) % L25519 := by
'''
for i in range(12):
    out+=f"  have f{i} : 0 ≤ σ {100+i} ∧ σ {100+i} ≤ 2097151 := hf ({100+i}, 0, 2097151) (by decide)\n"
out+="  have f12 : -1 ≤ σ 112 ∧ σ 112 ≤ 0 := hf (112, -1, 0) (by decide)\n"
for i in range(13,24):
    out+=f"  have f{i} : 0 ≤ σ {100+i} ∧ σ {100+i} ≤ 0 := hf ({100+i}, 0, 0) (by decide)\n"
for i in range(11):
    out+=f"  have l{i} : 0 ≤ τ {100+i} ∧ τ {100+i} ≤ 2097151 := hl ({100+i}, 0, 2097151) (by decide)\n"
out+="  have l11 : -1 ≤ τ 111 ∧ τ 111 ≤ 2097152 := hl (111, -1, 2097152) (by decide)\n"
out+='''  clear hf hl
  have hw := Int.zero_dvd.1 (wp_sound 0 _ _ _ σ last_wp)
  have hm : Poly.eval σ [(113, -27742317777372353535851937790883648493)] = -27742317777372353535851937790883648493 * σ 112 := by
    show _ * mono σ (112 + 1) + 0 = _
    rw [mono_var σ 112 (by omega)]; omega
  rw [append_eval, hm, ← hτ] at hw
  have hL : ((L25519 : Nat) : Int) = 2 ^ 252 + 27742317777372353535851937790883648493 := rfl
  have e24 := lin21_100_24 σ
  have e12 := lin21_100_12 σ
  have t12 := lin21_100_12 τ
'''
for i in range(13,24):
    out+=f"  rw [show σ {100+i} = 0 by omega] at e24\n"
out+='''  generalize Poly.eval σ (lin21 100 24) = V3 at *
  generalize Poly.eval σ (lin21 100 12) = W3 at *
  generalize Poly.eval τ (lin21 100 12) = V4 at *
  have hV3 : V3 = W3 + 2 ^ 252 * σ 112 := by omega
  have hW : 0 ≤ W3 ∧ W3 < 2 ^ 252 := by omega
  have hV4 : 0 ≤ V4 ∧ V4 < L25519 := by rw [hL]; omega
  constructor
  · have : 0 ≤ τ 111 := by omega
    exact ⟨'''+", ".join(f"l{i}" for i in range(11))+''', this, l11.2⟩
  · symm
    have hq : V3 = V4 + L25519 * σ 112 := by rw [hL]; omega
    rw [hq, Int.add_mul_emod_self_left, Int.emod_eq_of_lt hV4.1 hV4.2]

theorem placeL_get (x : Nat) (l : List Int) (ρ : Env) (i : Nat) (hi : i < l.length) : placeL x l ρ (x + i) = l[i] := by
  simp only [placeL]
  rw [if_pos (by omega), Nat.add_sub_cancel_left, List.getD_eq_getElem?_getD, List.getElem?_eq_getElem hi]
  rfl

theorem placeL_byte {x : Nat} {l : List Int} (hl : areBytes l) (ρ : Env) (i : Nat) (h1 : x ≤ i) (h2 : i < x + l.length) :
    0 ≤ placeL x l ρ i ∧ placeL x l ρ i < 256 := by
  have := placeL_get x l ρ (i - x) (by omega)
  rw [show x + (i - x) = i by omega] at this
  rw [this]
  exact hl _ (List.getElem_mem _)

theorem leVal_append (l m : List Int) : leVal (l ++ m) = leVal l + 256 ^ l.length * leVal m := by
  induction l with
  | nil => simp [leVal]
  | cons b l ih => simp only [List.cons_append, leVal, ih, List.length_cons, Int.pow_succ]; grind

theorem leVal32 (ρ : Env) (x : Nat) : leVal (ρ.list x 32) =
    '''+" + ".join((f"2 ^ {8*i} * ρ (x + {i})" if i else "2 ^ 0 * ρ x") for i in range(32))+''' := by
  have hl : List.range 32 = ['''+", ".join(map(str,range(32)))+'''] := by decide
  rw [Env.list, hl]
  simp only [List.map, leVal, Nat.add_zero]
  omega

theorem list_placeL (x : Nat) (l : List Int) (ρ : Env) (n : Nat) (h : l.length = n) : (placeL x l ρ).list x n = l := by
  apply List.ext_getElem
  · simp [Env.list, h]
  · intro i h1 h2
    simp only [Env.list, List.getElem_map, List.getElem_range]
    exact placeL_get x l ρ i h2

theorem env_list_congr (ρ σ : Env) (x n : Nat) (h : ∀ i, i < n → ρ (x + i) = σ (x + i)) : ρ.list x n = σ.list x n := by
  apply List.map_congr_left
  intro i hi
  exact h i (List.mem_range.1 hi)

theorem leVal64 (ρ : Env) : leVal (ρ.list 0 64) = leVal (ρ.list 0 32) + 2 ^ 256 * leVal (ρ.list 32 32) := by
  have : ρ.list 0 64 = ρ.list 0 32 ++ ρ.list 32 32 := by
    simp only [Env.list]
    rw [show (64 : Nat) = 32 + 32 from rfl, List.range_add, List.map_append, List.map_map]
    congr 1
    apply List.map_congr_left
    intro i _
    simp only [Function.comp_apply, Nat.zero_add]
  rw [this, leVal_append]
  congr 1
  have : (ρ.list 0 32).length = 32 := by simp [Env.list]
  rw [this, show (256 : Int) ^ 32 = 2 ^ 256 by decide]

theorem split3 (a b c d : Prog) (ρ : Env) : runExact (a ++ (b ++ (c ++ d))) ρ = runExact d (runExact (a ++ (b ++ c)) ρ) := by
  simp only [runExact_append]

/-- `ScReduce` returns the canonical 32-byte encoding of its input modulo the group order. -/
theorem scReduce_all (s : List Int) (hl : s.length = 64) (hb : areBytes s) :
    safeRun (scReduceLoad ++ (scReduceFold ++ (scReduceFloor ++ scReduceLast))) (placeL 0 s zeroEnv) ∧
    (scReduce s).length = 32 ∧ areBytes (scReduce s) ∧ leVal (scReduce s) = leVal s % L25519 := by
  have hok : (bytesBd 0 64).ok (placeL 0 s zeroEnv) := by
    apply Bd.ok_of_all
    have := bytesBd_all (x := 0) hb zeroEnv
    rwa [hl] at this
  obtain ⟨g1, g2, g3⟩ := boundsAll_sound hok red_floor
  obtain ⟨h1, h2, h3⟩ := boundsAll_sound hok red_last
  have hbytes : ∀ i, i < 64 → 0 ≤ placeL 0 s zeroEnv i ∧ placeL 0 s zeroEnv i < 256 :=
    fun i hi => placeL_byte hb zeroEnv i (by omega) (by omega)
  have hlist : (placeL 0 s zeroEnv).list 0 64 = s := list_placeL 0 s zeroEnv 64 hl
  generalize placeL 0 s zeroEnv = ρ at *
  have hs := split3 scReduceLoad scReduceFold scReduceFloor scReduceLast ρ
  rw [← g1, ← h1] at hs
  obtain ⟨k1, k2⟩ := sc_tail _ _ g2 hs h2
  have hrun : run scReduceP ρ = run scReducePack
      (run (scReduceLoad ++ (scReduceFold ++ (scReduceFloor ++ scReduceLast))) ρ) := by
    rw [← run_append]; simp only [scReduceP, List.append_assoc]
  refine ⟨h3, ?_, ?_, ?_⟩
  · simp [scReduce, Env.list]
  · show areBytes ((run scReduceP (placeL 0 s zeroEnv)).list 64 32)
    sorryA
  · sorryB
'''
# The generalize loses scReduce's definitional link; do it differently
out=out[:out.index("  generalize placeL 0 s zeroEnv = ρ at *\n  have hs")]
out+='''  have hdef : scReduce s = (run scReduceP (placeL 0 s zeroEnv)).list 64 32 := rfl
  generalize placeL 0 s zeroEnv = ρ at *
  have hs := split3 scReduceLoad scReduceFold scReduceFloor scReduceLast ρ
  rw [← g1, ← h1] at hs
  obtain ⟨k1, k2⟩ := sc_tail _ _ g2 hs h2
  have hrun : run scReduceP ρ = run scReducePack
      (run (scReduceLoad ++ (scReduceFold ++ (scReduceFloor ++ scReduceLast))) ρ) := by
    rw [← run_append]; simp only [scReduceP, List.append_assoc]
  rw [hdef, hrun]
  refine ⟨h3, by simp [Env.list], sc_areBytes _ k1, ?_⟩
  rw [sc_pack_val _ k1, k2]
  apply cong_mod
  -- floor carries
  have c1 := Int.zero_dvd.1 (wp_sound 0 _ _ _ (runExact (scReduceLoad ++ scReduceFold) ρ) floor_wp)
  rw [← runExact_append, List.append_assoc, ← g1] at c1
  -- folds
  obtain ⟨q, hq, hc⟩ := norm_cong (b := some (Poly.scale L25519 1 (lin21 100 24))) red_fold_wp rfl
  have c2 := wp_sound L25519 _ _ q (runExact scReduceLoad ρ) hq
  rw [← runExact_append] at c2
  have c3 := (c2.trans (hc _)).trans (scale_eval L25519 _ 1 _)
  rw [Int.one_mul, scLoad_val ρ hbytes] at c3
  have c4 : Poly.eval (run (scReduceLoad ++ (scReduceFold ++ scReduceFloor)) ρ) (lin21 100 24)
    = Poly.eval (runExact (scReduceLoad ++ scReduceFold) ρ) (lin21 100 24) := by omega
  rw [c4]
  refine c3.trans (Cong.of_eq ?_)
  rw [← hlist, leVal64, leVal32, leVal32]
  simp only [Nat.zero_add, Nat.reduceAdd]
  omega

/-- Three operands in place. -/
def env3 (a b c : List Int) : Env := placeL 0 a (placeL 32 b (placeL 160 c zeroEnv))

theorem placeL_other (x : Nat) (l : List Int) (ρ : Env) (i : Nat) (h : i < x ∨ x + l.length ≤ i) : placeL x l ρ i = ρ i := by
  simp only [placeL]
  rw [if_neg (by omega)]

theorem env3_a (a b c : List Int) (ha : a.length = 32) : (env3 a b c).list 0 32 = a := list_placeL 0 a _ 32 ha
theorem env3_b (a b c : List Int) (ha : a.length = 32) (hb : b.length = 32) : (env3 a b c).list 32 32 = b := by
  rw [env3, env_list_congr _ (placeL 32 b (placeL 160 c zeroEnv)) 32 32 fun i _ => placeL_other _ _ _ _ (by omega)]
  exact list_placeL 32 b _ 32 hb
theorem env3_c (a b c : List Int) (ha : a.length = 32) (hb : b.length = 32) (hc : c.length = 32) :
    (env3 a b c).list 160 32 = c := by
  rw [env3, env_list_congr _ (placeL 160 c zeroEnv) 160 32 fun i _ => by
    rw [placeL_other _ _ _ _ (by omega), placeL_other _ _ _ _ (by omega)]]
  exact list_placeL 160 c _ 32 hc

theorem list_bytes {ρ : Env} {x : Nat} {l : List Int} (h : ρ.list x 32 = l) (hb : areBytes l) (i : Nat) (h1 : x ≤ i)
    (h2 : i < x + 32) : 0 ≤ ρ i ∧ ρ i < 256 := by
  apply hb
  rw [← h]
  simp only [Env.list, List.mem_map, List.mem_range]
  exact ⟨i - x, by omega, by congr 1; omega⟩

theorem bytesBd_env {ρ : Env} {x n : Nat} (h : ∀ i, x ≤ i → i < x + n → 0 ≤ ρ i ∧ ρ i < 256) :
    ∀ p ∈ bytesBd x n, p.2.1 ≤ ρ p.1 ∧ ρ p.1 ≤ p.2.2 := by
  intro p hp
  simp only [bytesBd, List.mem_map, List.mem_range] at hp
  obtain ⟨i, hi, rfl⟩ := hp
  have := h (x + i) (by omega) (by omega)
  simp only
  omega

/-- `ScMulAdd` returns the canonical 32-byte encoding of `a*b + c` modulo the group order. -/
theorem scMulAdd_all (a b c : List Int) (la : a.length = 32) (lb : b.length = 32) (lc : c.length = 32) (ba : areBytes a)
    (bb : areBytes b) (bc : areBytes c) :
    safeRun (scMulAddLoad ++ (scMulAddProd ++ (scMulAddFold ++ (scReduceFloor ++ scReduceLast)))) (env3 a b c) ∧
    (scMulAdd a b c).length = 32 ∧ areBytes (scMulAdd a b c) ∧
      leVal (scMulAdd a b c) = (leVal a * leVal b + leVal c) % L25519 := by
  have ea := env3_a a b c la
  have eb := env3_b a b c la lb
  have ec := env3_c a b c la lb lc
  have ha := list_bytes ea ba
  have hb := list_bytes eb bb
  have hc := list_bytes ec bc
  have hdef : scMulAdd a b c = (run scMulAddP (env3 a b c)).list 64 32 := rfl
  generalize env3 a b c = ρ at *
  have hok : (bytesBd 0 32 ++ (bytesBd 32 32 ++ bytesBd 160 32)).ok ρ := by
    apply Bd.ok_of_all
    intro p hp
    rcases List.mem_append.1 hp with hp | hp
    · exact bytesBd_env ha p hp
    rcases List.mem_append.1 hp with hp | hp
    · exact bytesBd_env hb p hp
    · exact bytesBd_env hc p hp
  obtain ⟨g1, g2, g3⟩ := boundsAll_sound hok ma_floor
  obtain ⟨h1, h2, h3⟩ := boundsAll_sound hok ma_last
  have hs : runExact (scMulAddLoad ++ (scMulAddProd ++ (scMulAddFold ++ (scReduceFloor ++ scReduceLast)))) ρ
      = runExact scReduceLast (runExact (scMulAddLoad ++ (scMulAddProd ++ (scMulAddFold ++ scReduceFloor))) ρ) := by
    simp only [runExact_append]
  rw [← g1, ← h1] at hs
  obtain ⟨k1, k2⟩ := sc_tail _ _ g2 hs h2
  have hrun : run scMulAddP ρ = run scReducePack
      (run (scMulAddLoad ++ (scMulAddProd ++ (scMulAddFold ++ (scReduceFloor ++ scReduceLast)))) ρ) := by
    rw [← run_append]; simp only [scMulAddP, List.append_assoc, floor_same, last_same, pack_same]
  rw [hdef, hrun]
  refine ⟨h3, by simp [Env.list], sc_areBytes _ k1, ?_⟩
  rw [sc_pack_val _ k1, k2]
  apply cong_mod
  have c1 := Int.zero_dvd.1 (wp_sound 0 _ _ _ (runExact (scMulAddLoad ++ (scMulAddProd ++ scMulAddFold)) ρ) floor_wp)
  rw [← runExact_append, List.append_assoc, List.append_assoc, ← g1] at c1
  obtain ⟨q, hq, hcq⟩ := norm_cong (b := some (Poly.scale L25519 1 (lin21 100 24))) ma_fold_wp rfl
  have c2 := wp_sound L25519 _ _ q (runExact (scMulAddLoad ++ scMulAddProd) ρ) hq
  rw [← runExact_append, List.append_assoc] at c2
  have c3 := (c2.trans (hcq _)).trans (scale_eval L25519 _ 1 _)
  rw [Int.one_mul] at c3
  have c4 : Poly.eval (run (scMulAddLoad ++ (scMulAddProd ++ (scMulAddFold ++ scReduceFloor))) ρ) (lin21 100 24)
    = Poly.eval (runExact (scMulAddLoad ++ (scMulAddProd ++ scMulAddFold)) ρ) (lin21 100 24) := by omega
  rw [c4]
  refine c3.trans (Cong.of_eq ?_)
  -- products
  obtain ⟨r, hr⟩ := Option.isSome_iff_exists.1 prod_some
  have hp := prod_wp
  rw [hr] at hp
  obtain ⟨q2, hq2, hcq2⟩ := norm_cong (b := some (Poly.add 0 (lin21 224 12) r)) hp rfl
  have d1 := Int.zero_dvd.1 (wp_sound 0 _ _ q2 (runExact scMulAddLoad ρ) hq2)
  have d2 := Int.zero_dvd.1 (hcq2 (runExact scMulAddLoad ρ))
  have d3 := Int.zero_dvd.1 (add_eval 0 (runExact scMulAddLoad ρ) (lin21 224 12) r)
  have d4 := Int.zero_dvd.1 (mul_eval 0 (runExact scMulAddLoad ρ) _ _ r hr)
  rw [← runExact_append] at d1
  have va : Poly.eval (runExact scMulAddLoad ρ) (lin21 200 12) = leVal a := by
    rw [maLoada_val ρ ha, ← ea, leVal32]
    simp only [Nat.zero_add, Nat.reduceAdd]
  have vb : Poly.eval (runExact scMulAddLoad ρ) (lin21 212 12) = leVal b := by
    rw [maLoadb_val ρ hb, ← eb, leVal32]
  have vc : Poly.eval (runExact scMulAddLoad ρ) (lin21 224 12) = leVal c := by
    rw [maLoadc_val ρ hc, ← ec, leVal32]
  rw [va, vb] at d4
  rw [vc] at d3
  generalize leVal a * leVal b = ab at *
  omega

end Verif.Limb
'''
open('/verif/lean/Verif/Proofs/Scalar3.lean','w').write(out)
