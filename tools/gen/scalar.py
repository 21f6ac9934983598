import re
out='''import Verif.Proofs.Field3
import Verif.Model.Scalar
import Verif.Spec.Scalar
namespace Verif.Limb
set_option maxRecDepth 100000
set_option linter.unusedVariables false
set_option exponentiation.threshold 600

'''
src=open('/repo/ecc/edwards25519/edwards25519.go').read().split('\n')
# parse load lines
def parse(lines,nm):
    r={}
    for ln in lines:
        m=re.match(r'\s*'+nm+r'(\d+) := (2097151 & )?\(?load(\d)\(\w\[(\d*):\]\)(?: >> (\d+))?\)?',ln)
        if m: r[int(m[1])]=(m[2] is not None,int(m[3]),int(m[4] or 0),int(m[5] or 0))
    return r
red=parse(src[1323:1348],'s'); assert len(red)==24
ma=parse(src[892:930],'a'); assert len(ma)==12
def limb(spec,v):
    mask,n,off,sh=spec
    e=" + ".join((f"{v(off+j)} * 2 ^ {8*j}" if j else v(off)) for j in range(n))
    e=f"({e})"
    if sh: e=f"({e} / 2 ^ {sh})"
    if mask: e=f"({e} % (2097151 + 1))"
    return e
def block(name,specs,boff,nb,loff,nl):
    """lemma: bytes boff..boff+nb-1 <-> limbs loff.."""
    global out
    sp={i-loff:(specs[i][0],specs[i][1],specs[i][2]-boff,specs[i][3]) for i in range(loff,loff+nl)}
    bs=[f"b{i}" for i in range(nb)]
    out+=f"theorem {name} ({' '.join(bs)} : Int) "+" ".join(f"(h{i} : 0 ≤ b{i} ∧ b{i} < 256)" for i in range(nb))+" :\n    "
    out+=" + ".join(f"2 ^ {21*i} * {limb(sp[i],lambda k:f'b{k}')}" for i in range(nl))
    out+=" =\n    "+" + ".join(f"2 ^ {8*i} * b{i}" for i in range(nb))+" := by\n"
    # each limb i covers bits 21i..21i+20 ; split bytes
    splits={}
    for i in range(nl):
        mask,n,off,sh=sp[i]
        lo=21*i; hi=21*i+21 if mask else 8*(off+n)
        assert lo==8*off+sh,(i,lo,off,sh)
        parts=[]
        for k in range(off,off+n):
            blo=max(lo,8*k); bhi=min(hi,8*k+8)
            if bhi<=blo: continue
            # bits blo..bhi of byte k
            e=f"b{k}"
            if bhi<8*k+8: e=f"(b{k} % {2**(bhi-8*k)})"; splits[k]=bhi-8*k
            if blo>8*k:
                assert bhi==8*k+8 or True
                e=f"(b{k} / {2**(blo-8*k)})" if bhi==8*k+8 else None
                assert e
                splits[k]=blo-8*k
            parts.append(f"2 ^ {blo-lo} * {e}")
        out+=f"  have e{i} : {limb(sp[i],lambda k:f'b{k}')} = "+" + ".join(parts)+" := by omega\n"
    out+="  rw ["+", ".join(f"e{i}" for i in range(nl))+"]\n"
    for k,v in sorted(splits.items()):
        out+=f"  have f{k} : b{k} = b{k} % {2**v} + {2**v} * (b{k} / {2**v}) := by omega\n"
    for k,v in sorted(splits.items()):
        out+=f"  generalize b{k} % {2**v} = x{k} at f{k} ⊢\n  generalize b{k} / {2**v} = y{k} at f{k} ⊢\n"
    out+="  clear "+" ".join(f"e{i}" for i in range(nl))+"\n"
    out+="  omega\n\n"
block("blockA",red,0,21,0,8)
block("blockC",red,42,22,16,8)
block("blockB",ma,21,11,8,4)
# linear forms
out+='''/-- `Σ 2^(21 i) v(x+i)`. -/
def lin21 (x n : Nat) : Poly := (List.range n).map fun i => (x + i + 1, (2 : Int) ^ (21 * i))

'''
def lemma_lin(n,x):
    global out
    out+=f"theorem lin21_{x}_{n} (ρ : Env) : Poly.eval ρ (lin21 {x} {n}) =\n    "+" + ".join(f"2 ^ {21*i} * ρ {x+i}" for i in range(n))+" := by\n"
    out+=f"  have e : lin21 {x} {n} = ["+", ".join(f"({x+i} + 1, 2 ^ {21*i})" for i in range(n))+"] := by decide\n"
    out+="  rw [e]\n  simp only [Poly.eval]\n"
    out+="  rw ["+", ".join(f"mono_var ρ {x+i} (by omega)" for i in range(n))+"]\n  omega\n\n"
lemma_lin(24,100); lemma_lin(12,100)
for x in (200,212,224): lemma_lin(12,x)
# load exact
rho=lambda base:(lambda k:f"ρ {base+k}")
for i in range(24):
    out+=f"theorem scLoad{i} (ρ : Env) : runExact scReduceLoad ρ {100+i} = {limb(red[i],rho(0))} := rfl\n"
out+="\n"
for nm,base,off in (("a",0,200),("b",32,212),("c",160,224)):
    for i in range(12):
        out+=f"theorem maLoad{nm}{i} (ρ : Env) : runExact scMulAddLoad ρ {off+i} = {limb(ma[i],rho(base))} := rfl\n"
    out+="\n"
def bytesum(n,v): return " + ".join(f"2 ^ {8*i} * {v(i)}" for i in range(n))
out+=f"theorem scLoad_val (ρ : Env) (h : ∀ i, i < 64 → 0 ≤ ρ i ∧ ρ i < 256) : Poly.eval (runExact scReduceLoad ρ) (lin21 100 24) =\n    {bytesum(64,rho(0))} := by\n"
out+="  rw [lin21_100_24, "+", ".join(f"scLoad{i}" for i in range(24))+"]\n"
out+="  have p0 := blockA "+" ".join(f"(ρ {i})" for i in range(21))+" "+" ".join(f"(h {i} (by omega))" for i in range(21))+"\n"
out+="  have p1 := blockA "+" ".join(f"(ρ {i})" for i in range(21,42))+" "+" ".join(f"(h {i} (by omega))" for i in range(21,42))+"\n"
out+="  have p2 := blockC "+" ".join(f"(ρ {i})" for i in range(42,64))+" "+" ".join(f"(h {i} (by omega))" for i in range(42,64))+"\n"
for i in range(24):
    out+=f"  generalize {limb(red[i],rho(0))} = x{i} at p{i//8} ⊢\n"
out+="  clear h\n  omega\n\n"
for nm,base,off in (("a",0,200),("b",32,212),("c",160,224)):
    out+=f"theorem maLoad{nm}_val (ρ : Env) (h : ∀ i, {base} ≤ i → i < {base+32} → 0 ≤ ρ i ∧ ρ i < 256) : Poly.eval (runExact scMulAddLoad ρ) (lin21 {off} 12) =\n    {bytesum(32,rho(base))} := by\n"
    out+=f"  rw [lin21_{off}_12, "+", ".join(f"maLoad{nm}{i}" for i in range(12))+"]\n"
    out+="  have p0 := blockA "+" ".join(f"(ρ {base+i})" for i in range(21))+" "+" ".join(f"(h {base+i} (by omega) (by omega))" for i in range(21))+"\n"
    out+="  have p1 := blockB "+" ".join(f"(ρ {base+i})" for i in range(21,32))+" "+" ".join(f"(h {base+i} (by omega) (by omega))" for i in range(21,32))+"\n"
    for i in range(12):
        out+=f"  generalize {limb(ma[i],rho(base))} = x{i} at p{i//8} ⊢\n"
    out+="  clear h\n  omega\n\n"
# pack
rows=[]
for ln in src[1606:1638]:
    m=re.match(r'\s*out\[(\d+)\] = byte\(s(\d+) >> (\d+)\)',ln)
    if m: rows.append((int(m[1]),int(m[2]),int(m[3]),None,None)); continue
    m=re.match(r'\s*out\[(\d+)\] = byte\(\(s(\d+) >> (\d+)\) \| \(s(\d+) << (\d+)\)\)',ln)
    rows.append((int(m[1]),int(m[2]),int(m[3]),int(m[4]),int(m[5])))
assert [r[0] for r in rows]==list(range(32))
def ex(k,f):
    _,a,sa,b,sb=rows[k]
    if b is None: return f"({f(a)} / 2 ^ {sa}) % 256"
    return f"({f(a)} / 2 ^ {sa} + {f(b)} * 2 ^ {sb}) % 256"
out+='''/-- `byte(x | y << n)` in 64-bit arithmetic. -/
theorem byte_or64 (n : Nat) (x y : Int) (hx : 0 ≤ x) (hx2 : x < 2 ^ n) (hy : 0 ≤ y) (hy2 : y * 2 ^ n ≤ Wd.w64.hi)
    (h : x + y * 2 ^ n ≤ Wd.w64.hi) :
    Wd.w8.wrap (Wd.w64.wrap (BitVec.ofInt Wd.w64.bits x ||| BitVec.ofInt Wd.w64.bits (Wd.w64.wrap (y * 2 ^ n))).toNat)
      = (x + y * 2 ^ n) % 256 := by
  have h0 : 0 ≤ y * 2 ^ n := Int.mul_nonneg hy (Int.pow_nonneg (by omega))
  have key : ∀ w, w = 64 → Wd.w8.wrap (Wd.w64.wrap (BitVec.ofInt w x ||| BitVec.ofInt w (Wd.w64.wrap (y * 2 ^ n))).toNat)
      = (x + y * 2 ^ n) % 256 := by
    rintro _ rfl
    rw [wrap_id .w64 (y * 2 ^ n) (by simp only [Wd.lo]; omega) hy2, or_eq n x y hx hx2 hy hy2 h]
    rfl
  exact key _ rfl

'''
R=lambda i:f"ρ {100+i}"
out+="/-- Limb ranges before the bytes are written. -/\ndef scRange (ρ : Env) : Prop :=\n  "+" ∧\n  ".join(f"(0 ≤ ρ {100+i} ∧ ρ {100+i} ≤ {2097151 if i<11 else 2097152})" for i in range(12))+"\n\n"
out+="theorem sc_bytes (ρ : Env) (h : scRange ρ) : (run scReducePack ρ).list 64 32 = [\n    "
out+=",\n    ".join(ex(k,R) for k in range(32))+"] := by\n"
out+="  obtain ⟨"+", ".join(f"h{i}" for i in range(12))+"⟩ := h\n"
for k in range(32):
    _,a,sa,b,sb=rows[k]
    pre=f"  have e{k} : run scReducePack ρ {64+k} = {ex(k,R)} := "
    if b is not None:
        out+=pre+f"(sc_at {k} {64+k} _ ρ ⟨rfl, by decide, by decide, by decide⟩).trans <| byte_or64 {sb} ({R(a)} / 2 ^ {sa}) ({R(b)}) (by omega) (by omega) (by omega) (by simp only [Wd.hi]; omega) (by simp only [Wd.hi]; omega)\n"
    else:
        out+=pre+f"sc_at {k} {64+k} _ ρ ⟨rfl, by decide, by decide, by decide⟩\n"
out+="  have hl : List.range 32 = ["+", ".join(map(str,range(32)))+"] := by decide\n  rw [Env.list, hl]\n  simp only [List.map, Nat.reduceAdd]\n  rw ["+", ".join(f"e{k}" for k in range(32))+"]\n\n"
# pack halves: bytes 0-20 <-> s0..s7 ; 21-31 <-> s8..s11
for half,(lo,hi,l0,l1) in enumerate([(0,21,0,8),(21,32,8,12)]):
    lims=range(l0,l1)
    out+=f"theorem sc_half{half} ("+" ".join(f"r{i}" for i in lims)+" : Int) "
    out+=" ".join(f"(h{i} : 0 ≤ r{i} ∧ r{i} ≤ {2097151 if i<11 else 2097152})" for i in lims)+" :\n    "
    out+=" + ".join(f"2 ^ {8*(k-lo)} * ({ex(k,lambda i:f'r{i}')})" for k in range(lo,hi))
    out+="\n    = "+" + ".join(f"2 ^ {21*(i-l0)} * r{i}" for i in lims)+" := by\n"
    for k in range(lo,hi):
        _,a,sa,b,sb=rows[k]
        if b is not None:
            out+=f"  have e{k} : {ex(k,lambda i:f'r{i}')} = r{a} / 2 ^ {sa} + 2 ^ {sb} * (r{b} % 2 ^ {8-sb}) := by omega\n"
    gens=[]
    for i in lims:
        parts=[]
        lowb=[rows[k] for k in range(lo,hi) if rows[k][3]==i]
        if lowb:
            parts.append(f"r{i} % 2 ^ {8-lowb[0][4]}"); gens.append((i,f"r{i} % 2 ^ {8-lowb[0][4]}"))
        for k in range(lo,hi):
            if rows[k][1]==i:
                sa=rows[k][2]
                if rows[k][3] is None:
                    parts.append(f"2 ^ {sa} * ((r{i} / 2 ^ {sa}) % 256)"); gens.append((i,f"(r{i} / 2 ^ {sa}) % 256"))
                else:
                    parts.append(f"2 ^ {sa} * (r{i} / 2 ^ {sa})"); gens.append((i,f"r{i} / 2 ^ {sa}"))
        out+=f"  have f{i} : r{i} = "+" + ".join(parts)+" := by omega\n"
    es=[f"e{k}" for k in range(lo,hi) if rows[k][3] is not None]
    out+="  rw ["+", ".join(es)+"]\n"
    for n,(i,gx) in enumerate(gens):
        out+=f"  generalize {gx} = x{n} at f{i} ⊢\n"
    out+="  clear "+" ".join(es)+"\n  omega\n\n"
out+="theorem sc_pack_val (ρ : Env) (h : scRange ρ) : leVal ((run scReducePack ρ).list 64 32) = Poly.eval ρ (lin21 100 12) := by\n"
out+="  rw [sc_bytes ρ h, lin21_100_12]\n"
out+="  obtain ⟨"+", ".join(f"h{i}" for i in range(12))+"⟩ := h\n"
out+="  have p0 := sc_half0 "+" ".join(f"({R(i)})" for i in range(8))+" "+" ".join(f"h{i}" for i in range(8))+"\n"
out+="  have p1 := sc_half1 "+" ".join(f"({R(i)})" for i in range(8,12))+" "+" ".join(f"h{i}" for i in range(8,12))+"\n"
out+="  simp only [leVal]\n"
for k in range(32):
    out+=f"  generalize {ex(k,R)} = x{k} at p{0 if k<21 else 1} ⊢\n"
out+="  omega\n\n"
out+='''theorem sc_areBytes (ρ : Env) (h : scRange ρ) : areBytes ((run scReducePack ρ).list 64 32) := by
  rw [sc_bytes ρ h]
  intro b hb
  have m : ∀ z : Int, 0 ≤ z % 256 ∧ z % 256 < 256 := fun z => by omega
  simp only [List.mem_cons, List.not_mem_nil, or_false] at hb
  rcases hb with '''+" | ".join(["rfl"]*32)+''' <;> exact m _

end Verif.Limb
'''
# sc_at lemma inserted before byte_or64
out=out.replace("/-- `byte(x | y << n)` in 64-bit",'''/-- Blocks whose reads are all at `n` or above and whose targets are all below. -/
def Ex.readsAbove (n : Nat) : Ex → Bool
  | .v x => Nat.ble n x
  | .k _ => true
  | .add _ a b => a.readsAbove n && b.readsAbove n
  | .sub _ a b => a.readsAbove n && b.readsAbove n
  | .mul _ a b => a.readsAbove n && b.readsAbove n
  | .neg _ a => a.readsAbove n
  | .and _ a b => a.readsAbove n && b.readsAbove n
  | .or _ a b => a.readsAbove n && b.readsAbove n
  | .shl _ a _ => a.readsAbove n
  | .shr a _ => a.readsAbove n
  | .cast _ a => a.readsAbove n

theorem eval_congr_above (n : Nat) (ρ σ : Env) (h : ∀ y, n ≤ y → ρ y = σ y) :
    ∀ e : Ex, e.readsAbove n = true → e.eval ρ = e.eval σ := by
  intro e
  induction e with
  | v x => intro hr; exact h x (Nat.le_of_ble_eq_true hr)
  | k n => intro _; rfl
  | add w a b iha ihb | sub w a b iha ihb | mul w a b iha ihb | and w a b iha ihb | or w a b iha ihb =>
    intro hr
    simp only [Ex.readsAbove, Bool.and_eq_true] at hr
    simp only [Ex.eval, iha hr.1, ihb hr.2]
  | neg w a ih | shl w a n ih | cast w a ih | shr a n ih =>
    intro hr
    simp only [Ex.eval, ih hr]

theorem run_above (n : Nat) : ∀ (p : Prog) (ρ : Env), p.all (fun t => Nat.blt t.1 n) = true → ∀ y, n ≤ y → run p ρ y = ρ y
  | [], _, _, _, _ => rfl
  | (x, e) :: p, ρ, h, y, hy => by
    simp only [List.all_cons, Bool.and_eq_true] at h
    have hx : x < n := blt_iff.1 h.1
    show run p _ y = _
    rw [run_above n p _ h.2 y hy]
    simp only [Env.set]
    rw [if_neg]
    omega

theorem run_at_above (n : Nat) (p : Prog) (i x : Nat) (e : Ex) (ρ : Env)
    (h : p = p.take i ++ (x, e) :: p.drop (i + 1) ∧ (p.take i).all (fun t => Nat.blt t.1 n) = true ∧
      e.readsAbove n = true ∧ (p.drop (i + 1)).all (fun t => !(Nat.beq t.1 x)) = true) : run p ρ x = e.eval ρ := by
  obtain ⟨h1, h2, h3, h4⟩ := h
  conv => lhs; rw [h1]
  rw [run_append]
  show run (p.drop (i + 1)) _ x = _
  rw [run_other _ _ x h4]
  simp only [Env.set]
  exact eval_congr_above n _ _ (run_above n _ ρ h2) e h3

theorem sc_at (i x : Nat) (e : Ex) (ρ : Env)
    (h : scReducePack = scReducePack.take i ++ (x, e) :: scReducePack.drop (i + 1) ∧
      (scReducePack.take i).all (fun t => Nat.blt t.1 100) = true ∧ e.readsAbove 100 = true ∧
      (scReducePack.drop (i + 1)).all (fun t => !(Nat.beq t.1 x)) = true) : run scReducePack ρ x = e.eval ρ :=
  run_at_above 100 _ i x e ρ h

/-- `byte(x | y << n)` in 64-bit''')
open('/verif/lean/Verif/Proofs/Scalar.lean','w').write(out)
