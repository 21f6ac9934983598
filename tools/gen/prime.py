import sys; sys.path.insert(0,'/tmp/gen')
import pratt,io,contextlib
with contextlib.redirect_stdout(io.StringIO()):
    pratt.pratt(2**255-19); pratt.pratt(2**252+27742317777372353535851937790883648493)
out='''import Mathlib.NumberTheory.LucasPrimality
import Mathlib.Tactic.NormNum.Prime
import Verif.Spec.Scalar
/-
The field's characteristic 2^255 - 19 and the order of the base point are prime: Pratt certificates, checked by the
kernel with Lucas's criterion.
-/
namespace Verif.Limb

/-- `b ^ e mod m` by squaring, `k` an upper bound on the number of bits of `e`. -/
def powMod (m : Nat) : Nat → Nat → Nat → Nat
  | 0, _, _ => 1 % m
  | k + 1, b, e => if e % 2 = 1 then b * powMod m k (b * b % m) (e / 2) % m else powMod m k (b * b % m) (e / 2)

theorem powMod_eq (m : Nat) : ∀ (k b e : Nat), e < 2 ^ k → powMod m k b e = b ^ e % m
  | 0, b, e, h => by
    have : e = 0 := by simpa using h
    subst this; simp [powMod]
  | k + 1, b, e, h => by
    have ih := powMod_eq m k (b * b % m) (e / 2) (by rw [Nat.pow_succ] at h; omega)
    have e2 : (b * b) ^ (e / 2) = b ^ (2 * (e / 2)) := by rw [← Nat.pow_two, ← Nat.pow_mul]
    simp only [powMod]
    rw [ih, ← Nat.pow_mod, e2]
    split
    · next h1 =>
      have he : 2 * (e / 2) + 1 = e := by omega
      rw [Nat.mul_mod, Nat.mod_mod, ← Nat.mul_mod, ← Nat.pow_succ', Nat.succ_eq_add_one, he]
    · next h1 =>
      have he : 2 * (e / 2) = e := by omega
      rw [he]

/-- The certificate: `a` has order `n - 1` modulo `n`, given the prime factors `fs` of `n - 1`. -/
def lucasCert (n a k : Nat) (fs : List (Nat × Nat)) : Bool :=
  decide (1 < n) && decide (n - 1 < 2 ^ k) && decide ((fs.map fun f => f.1 ^ f.2).prod = n - 1) && decide (powMod n k a (n - 1) = 1)
    && fs.all fun f => decide (powMod n k a ((n - 1) / f.1) ≠ 1)

theorem prime_dvd_prod {q : Nat} (hq : q.Prime) : ∀ {fs : List (Nat × Nat)}, (∀ f ∈ fs, f.1.Prime) →
    q ∣ (fs.map fun f => f.1 ^ f.2).prod → ∃ f ∈ fs, q = f.1
  | [], _, h => by simp at h; exact absurd h hq.one_lt.ne'
  | f :: fs, hp, h => by
    rw [List.map_cons, List.prod_cons] at h
    rcases hq.dvd_mul.1 h with h | h
    · exact ⟨f, List.mem_cons_self .., (Nat.prime_dvd_prime_iff_eq hq (hp f (List.mem_cons_self ..))).1 (hq.dvd_of_dvd_pow h)⟩
    · obtain ⟨g, hg, e⟩ := prime_dvd_prod hq (fun f hf => hp f (List.mem_cons_of_mem _ hf)) h
      exact ⟨g, List.mem_cons_of_mem _ hg, e⟩

theorem prime_of_cert (n a k : Nat) (fs : List (Nat × Nat)) (hp : ∀ f ∈ fs, f.1.Prime) (h : lucasCert n a k fs = true) :
    n.Prime := by
  simp only [lucasCert, Bool.and_eq_true, decide_eq_true_eq, List.all_eq_true] at h
  obtain ⟨⟨⟨⟨h0, h1⟩, h2⟩, h3⟩, h4⟩ := h
  have tr : ∀ e, e ≤ n - 1 → ((a : ZMod n) ^ e = 1 ↔ powMod n k a e = 1) := by
    intro e he
    rw [powMod_eq n k a e (by omega)]
    rw [← Nat.cast_pow, ← Nat.cast_one, ZMod.natCast_eq_natCast_iff']
    rw [Nat.mod_eq_of_lt h0]
  refine lucas_primality n (a : ZMod n) ((tr _ (Nat.le_refl _)).2 h3) ?_
  intro q hq hd
  rw [← h2] at hd
  obtain ⟨f, hf, rfl⟩ := prime_dvd_prod hq hp hd
  intro hc
  exact h4 f hf ((tr _ (Nat.div_le_self _ _)).1 hc)

'''
def small(p): return p<10**6
for p,(a,fs) in pratt.done.items():
    if small(p): continue
    nm=f'prime_{p}' if p<10**60 or p not in(2**255-19,2**252+27742317777372353535851937790883648493) else None
    if p==2**255-19: nm='prime_P25519'; st='P25519'
    elif p==2**252+27742317777372353535851937790883648493: nm='prime_L25519'; st='L25519'
    else: st=str(p)
    k=p.bit_length()
    l='['+', '.join(f'({q}, {e})' for q,e in fs)+']'
    out+=f'theorem {nm} : Nat.Prime {st} := by\n  refine prime_of_cert _ {a} {k} {l} ?_ (by decide +kernel)\n'
    out+='  simp only [List.mem_cons, List.not_mem_nil, or_false]\n'
    out+='  rintro f ('+' | '.join('rfl' for _ in fs)+')\n' if len(fs)>1 else '  rintro f rfl\n'
    for q,e in fs:
        out+=f'  · exact prime_{q}\n' if not small(q) else '  · norm_num\n'
    out+='\n'
out+='end Verif.Limb\n'
open('/verif/lean/Verif/Proofs/Prime.lean','w').write(out)
