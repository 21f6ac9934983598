import Verif.Model.Buffers
import Verif.Proofs.Cbc
/-
Lemmas about memory.
-/
set_option linter.unusedSimpArgs false
namespace Verif

theorem Mem.get_put_same (m : Mem) (i : Nat) (b : Bytes) (h : i < m.arrays.length) : (m.put i b).get i = b := by
  simp [Mem.get, Mem.put, List.getElem?_set, h]
theorem Mem.get_put_ne (m : Mem) (i j : Nat) (b : Bytes) (h : j ≠ i) : (m.put i b).get j = m.get j := by
  simp [Mem.get, Mem.put, List.getElem?_set, Ne.symm h]
@[simp] theorem Mem.length_put (m : Mem) (i : Nat) (b : Bytes) : (m.put i b).arrays.length = m.arrays.length := by simp [Mem.put]
theorem Mem.get_alloc_old (m : Mem) (b : Bytes) (i : Nat) (h : i < m.arrays.length) : (m.alloc b).get i = m.get i := by
  simp [Mem.get, Mem.alloc, List.getElem?_append, h]
theorem Mem.get_alloc_new (m : Mem) (b : Bytes) : (m.alloc b).get m.fresh = b := by
  simp [Mem.get, Mem.alloc, Mem.fresh]
@[simp] theorem Mem.length_alloc (m : Mem) (b : Bytes) : (m.alloc b).arrays.length = m.arrays.length + 1 := by simp [Mem.alloc]

theorem Mem.read_congr {m m' : Mem} {s : Slice} (h : m'.get s.arr = m.get s.arr) : m'.read s = m.read s := by simp [Mem.read, h]

theorem Slice.In.read_length {s : Slice} {m : Mem} (h : s.In m) : (m.read s).length = s.len := by
  obtain ⟨-, h2, h3⟩ := h
  simp [Mem.read]; omega

theorem overwrite_length {b : Bytes} {i : Nat} {x : Bytes} (h : i + x.length ≤ b.length) : (overwrite b i x).length = b.length := by
  simp [overwrite]; omega

/-- Reading before the overwritten part. -/
theorem overwrite_before {b : Bytes} {i o n : Nat} {x : Bytes} (h : o + n ≤ i) (hb : i ≤ b.length) :
    ((overwrite b i x).drop o).take n = (b.drop o).take n := by
  simp only [overwrite, List.append_assoc]
  rw [List.drop_append_of_le_length (by simp; omega), List.take_append_of_le_length (by simp; omega), List.drop_take, List.take_take]
  congr 1
  omega

/-- Reading exactly the overwritten part. -/
theorem overwrite_at {b : Bytes} {i : Nat} {x : Bytes} (hb : i ≤ b.length) : ((overwrite b i x).drop i).take x.length = x := by
  simp only [overwrite, List.append_assoc]
  have : (b.take i).length = i := by simp; omega
  rw [show (b.take i ++ (x ++ b.drop (i + x.length))).drop i = x ++ b.drop (i + x.length) by
    conv => lhs; arg 1; rw [← this]
    rw [List.drop_left]]
  rw [List.take_left]

/-- Reading a part extending over the overwritten part. -/
theorem overwrite_through {b : Bytes} {o n : Nat} {x : Bytes} (hb : o + n ≤ b.length) :
    ((overwrite b (o + n) x).drop o).take (n + x.length) = (b.drop o).take n ++ x := by
  simp only [overwrite, List.append_assoc]
  rw [List.drop_append_of_le_length (by simp; omega), List.drop_take, show o + n - o = n by omega]
  have hl : ((b.drop o).take n).length = n := by simp; omega
  rw [← List.append_assoc]
  have : (List.take n (List.drop o b) ++ x).length = n + x.length := by rw [List.length_append, hl]
  rw [← this, List.take_left]

/-- What `pad` does. -/
theorem padM_spec (slack : Nat) {m : Mem} {s : Slice} (h : s.In m) :
    ∃ m1 p, padM slack m s = (m1, p) ∧ p.In m1 ∧ m1.read p = pad (m.read s) 16 ∧ p.len = 16 * (s.len / 16 + 1) ∧
      m.arrays.length ≤ m1.arrays.length ∧
      (∀ i < m.arrays.length, i ≠ s.arr → m1.get i = m.get i) ∧
      m1.get s.arr = (if s.len + (16 - s.len % 16) ≤ s.cap then
        overwrite (m.get s.arr) (s.off + s.len) (List.replicate (16 - s.len % 16) (UInt8.ofNat (16 - s.len % 16))) else m.get s.arr) := by
  have hl := h.read_length
  obtain ⟨h1, h2, h3⟩ := h
  unfold padM goAppend
  simp only [List.length_replicate]
  by_cases hc : s.len + (16 - s.len % 16) ≤ s.cap
  · rw [if_pos hc]
    refine ⟨_, _, rfl, ⟨by simpa using h1, hc, ?_⟩, ?_, by simp only; omega, by simp, ?_, ?_⟩
    · simp only
      rw [Mem.get_put_same _ _ _ h1, overwrite_length (by simp; omega)]; exact h3
    · simp only [Mem.read]
      rw [Mem.get_put_same _ _ _ h1]
      have := overwrite_through (b := m.get s.arr) (o := s.off) (n := s.len) (x := List.replicate (16 - s.len % 16) (UInt8.ofNat (16 - s.len % 16))) (by omega)
      rw [List.length_replicate] at this
      rw [this]
      simp only [Mem.read] at hl
      simp only [pad, hl]
    · intro i _ hi; exact Mem.get_put_ne _ _ _ _ hi
    · rw [if_pos hc, Mem.get_put_same _ _ _ h1]
  · rw [if_neg hc]
    refine ⟨_, _, rfl, ⟨by simp [Mem.fresh], by simp only; omega, ?_⟩, ?_, by simp only; omega, by simp, ?_, ?_⟩
    · simp only
      rw [Mem.get_alloc_new]; simp [hl]; omega
    · rw [show ∀ (M : Mem) (a b c : Nat), M.read ⟨a, 0, b, c⟩ = (M.get a).take b from fun _ _ _ _ => rfl, Mem.get_alloc_new]
      have : (m.read s ++ List.replicate (16 - s.len % 16) (UInt8.ofNat (16 - s.len % 16))).length = s.len + (16 - s.len % 16) := by
        rw [List.length_append, hl, List.length_replicate]
      rw [← this, List.take_left]
      simp only [pad, hl]
    · intro i hi _; exact Mem.get_alloc_old _ _ _ hi
    · rw [if_neg hc]; exact Mem.get_alloc_old _ _ _ h1

theorem cbcCrypt_length {f : Block → List Block → List Block} (hf : ∀ iv l, (f iv l).length = l.length) {iv d x : Bytes}
    (h : cbcCrypt f iv d = .ok x) : x.length = d.length := by
  unfold cbcCrypt at h
  split at h
  · split at h
    · simp only [Res.ok.injEq] at h
      subst h
      rw [ofBlocks_length, hf, toBlocks_length]; omega
    · simp at h
  · simp at h

/-- **The effect of EncryptCbc**: it returns (in a new array) what the value-level model says, and the only old bytes that can change are the
`16 - len % 16` bytes right after the plaintext, when they belong to the slice's capacity. -/
theorem encryptCbcM_spec (C : Crypto) (slack : Nat) (d : Option Block) (iv : Option Bytes) (key : Bytes) {m : Mem} {pt : Slice} (h : pt.In m) :
    ∃ res m', encryptCbcM C slack d iv key m pt = (res, m') ∧ res.map m'.read = encryptCbc C d iv key (m.read pt) ∧
      (∀ s, res = .ok s → m.arrays.length ≤ s.arr) ∧ (∀ i < m.arrays.length, i ≠ pt.arr → m'.get i = m.get i) ∧
      m'.get pt.arr = (if pt.len + (16 - pt.len % 16) ≤ pt.cap then
        overwrite (m.get pt.arr) (pt.off + pt.len) (List.replicate (16 - pt.len % 16) (UInt8.ofNat (16 - pt.len % 16))) else m.get pt.arr) := by
  obtain ⟨m1, p, hp, hin, hread, hlen, hgrow, hother, hsame⟩ := padM_spec slack h
  have hplen := hin.read_length
  have hmod : p.len % 16 = 0 := by omega
  obtain ⟨hp1, -, -⟩ := hin
  have ha := h.1
  unfold encryptCbcM
  simp only [hp]
  rw [if_neg (by omega)]
  unfold encryptCbc
  simp only
  have hpl : ¬ (pad (m.read pt) 16).length % 16 ≠ 0 := by rw [pad_length]; omega
  rw [if_neg hpl]
  by_cases hk : aesKeyOk key = false
  · rw [if_pos hk, if_pos hk]
    exact ⟨_, _, rfl, rfl, by simp, hother, hsame⟩
  rw [if_neg hk, if_neg hk]
  -- arrays of `m1` survive
  have frame : ∀ m4 : Mem, (∀ i < m1.arrays.length, m4.get i = m1.get i) →
      (∀ i < m.arrays.length, i ≠ pt.arr → m4.get i = m.get i) ∧ m4.get pt.arr = m1.get pt.arr := by
    intro m4 h4
    exact ⟨fun i hi hne => by rw [h4 i (by omega), hother i hi hne], h4 _ (by omega)⟩
  cases iv with
  | none =>
    simp only
    cases d with
    | none =>
      obtain ⟨f1, f2⟩ := frame (m1.alloc (List.replicate (16 + p.len) 0)) (fun i hi => Mem.get_alloc_old _ _ _ hi)
      exact ⟨_, _, rfl, rfl, by simp, f1, by rw [f2]; exact hsame⟩
    | some v =>
      simp only [cryptBlocksM]
      have hfr : ∀ b, ∀ i < m1.arrays.length, ((m1.alloc b).write ⟨m1.fresh, 0, 16, 16 + p.len⟩ v.bytes).get i = m1.get i := by
        intro b i hi
        rw [Mem.write, Mem.get_put_ne _ _ _ _ (by simp only [Mem.fresh]; omega), Mem.get_alloc_old _ _ _ hi]
      rw [Mem.read_congr (hfr _ p.arr hp1), hread]
      obtain ⟨x, hx⟩ : ∃ x, cbcCrypt (cbcEncBlocks C key) v.bytes (pad (m.read pt) 16) = .ok x :=
        ⟨_, cbcCrypt_ok _ _ _ _ v.len (pad_length _)⟩
      have hxl := cbcCrypt_length (cbcEncBlocks_length C key) hx
      rw [hx]
      simp only
      refine ⟨_, _, rfl, ?_, ?_, ?_⟩
      · simp only [Res.map, Res.ok.injEq, Mem.read, Mem.write]
        rw [Mem.get_put_same _ _ _ (by simp [Mem.fresh]), Mem.get_put_same _ _ _ (by simp [Mem.fresh]), Mem.get_alloc_new]
        have e1 : overwrite (List.replicate (16 + p.len) 0) 0 v.bytes = v.bytes ++ List.replicate p.len 0 := by
          simp [overwrite, v.len]
        have e2 : overwrite (v.bytes ++ List.replicate p.len 0) 16 x = v.bytes ++ x := by
          have hxp : x.length = p.len := by rw [hxl, ← hplen, hread]
          simp only [overwrite]
          rw [List.take_append_of_le_length (by rw [v.len]; omega), List.take_of_length_le (by rw [v.len]; omega), List.drop_of_length_le (by simp [v.len]; omega), List.append_nil]
        rw [e1, e2, List.drop_zero, List.take_of_length_le]
        rw [List.length_append, v.len, hxl, ← hread, hplen]
        omega
      · intro s hs; simp only [Res.ok.injEq] at hs; subst hs; exact hgrow
      · obtain ⟨f1, f2⟩ := frame (((m1.alloc (List.replicate (16 + p.len) 0)).write ⟨m1.fresh, 0, 16, 16 + p.len⟩ v.bytes).write ⟨m1.fresh, 16, p.len, p.len⟩ x) (fun i hi => by
          rw [Mem.write, Mem.get_put_ne _ _ _ _ (by simp only [Mem.fresh]; omega)]; exact hfr _ i hi)
        exact ⟨f1, by rw [f2]; exact hsame⟩
  | some v =>
    simp only [cryptBlocksM]
    rw [Mem.read_congr (m := m1) (Mem.get_alloc_old _ _ _ hp1), hread]
    cases hx : cbcCrypt (cbcEncBlocks C key) v (pad (m.read pt) 16) with
    | err e =>
      obtain ⟨f1, f2⟩ := frame (m1.alloc (List.replicate p.len 0)) (fun i hi => Mem.get_alloc_old _ _ _ hi)
      exact ⟨_, _, rfl, rfl, by simp, f1, by rw [f2]; exact hsame⟩
    | panic =>
      obtain ⟨f1, f2⟩ := frame (m1.alloc (List.replicate p.len 0)) (fun i hi => Mem.get_alloc_old _ _ _ hi)
      exact ⟨_, _, rfl, rfl, by simp, f1, by rw [f2]; exact hsame⟩
    | ok x =>
      have hxl := cbcCrypt_length (cbcEncBlocks_length C key) hx
      have hxp : x.length = p.len := by rw [hxl, ← hplen, hread]
      simp only
      refine ⟨_, _, rfl, ?_, ?_, ?_⟩
      · simp only [Res.map, Res.ok.injEq, Mem.read, Mem.write]
        rw [Mem.get_put_same _ _ _ (by simp [Mem.fresh]), Mem.get_alloc_new]
        simp only [overwrite, List.take_zero, List.nil_append, Nat.zero_add, List.drop_zero]
        rw [List.drop_of_length_le (by simp; omega), List.append_nil, List.take_of_length_le (by omega)]
      · intro s hs; simp only [Res.ok.injEq] at hs; subst hs; exact hgrow
      · obtain ⟨f1, f2⟩ := frame ((m1.alloc (List.replicate p.len 0)).write ⟨m1.fresh, 0, p.len, p.len⟩ x) (fun i hi => by
          rw [Mem.write, Mem.get_put_ne _ _ _ _ (by simp only [Mem.fresh]; omega), Mem.get_alloc_old _ _ _ hi])
        exact ⟨f1, by rw [f2]; exact hsame⟩

theorem unpadM_spec {m : Mem} {s : Slice} (h : s.In m) : (unpadM m s).map m.read = unpad (m.read s) ∧
    ∀ p, unpadM m s = .ok p → p.arr = s.arr ∧ p.off = s.off ∧ p.len ≤ s.len := by
  unfold unpadM unpad
  have hl := h.read_length
  cases hg : (m.read s).getLast? with
  | none => exact ⟨rfl, by simp⟩
  | some x =>
    simp only [hl]
    by_cases hx : s.len < x.toNat
    · rw [if_pos hx, if_pos hx]; exact ⟨rfl, by simp⟩
    · rw [if_neg hx, if_neg hx]
      refine ⟨?_, ?_⟩
      · simp only [Res.map, Res.ok.injEq, Mem.read, List.take_take]
        congr 1
        omega
      · intro p hp; simp only [Res.ok.injEq] at hp; subst hp; exact ⟨rfl, rfl, by simp⟩

/-- **The effect of DecryptCbc** with an IV: the value is that of the value-level model; the result is a prefix of the ciphertext slice; other arrays do not change; and
the ciphertext is overwritten by its decryption unless the call failed beforehand. -/
theorem decryptCbcM_spec (C : Crypto) (v key : Bytes) {m : Mem} {ct : Slice} (h : ct.In m) :
    ∃ res m', decryptCbcM C (some v) key m ct = (res, m') ∧ res.map m'.read = decryptCbc C (some v) key (m.read ct) ∧
      m'.arrays.length = m.arrays.length ∧ (∀ i, i ≠ ct.arr → m'.get i = m.get i) ∧
      (∀ p, res = .ok p → p.arr = ct.arr ∧ p.off = ct.off ∧ p.len ≤ ct.len) ∧
      ((m' = m ∧ ∀ p, res ≠ .ok p) ∨
       ∃ x, cbcCrypt (cbcDecBlocks C key) v (m.read ct) = .ok x ∧ m'.read ct = x ∧ m'.get ct.arr = overwrite (m.get ct.arr) ct.off x) := by
  have hl := h.read_length
  unfold decryptCbcM decryptCbc
  by_cases hk : aesKeyOk key = false
  · rw [if_pos hk, if_pos hk]
    exact ⟨_, _, rfl, rfl, rfl, fun _ _ => rfl, by simp, .inl ⟨rfl, by simp⟩⟩
  rw [if_neg hk, if_neg hk]
  by_cases h16 : ct.len < 16
  · rw [if_pos h16, if_pos (by omega)]
    exact ⟨_, _, rfl, rfl, rfl, fun _ _ => rfl, by simp, .inl ⟨rfl, by simp⟩⟩
  rw [if_neg h16, if_neg (by omega)]
  simp only [cryptBlocksM]
  cases hx : cbcCrypt (cbcDecBlocks C key) v (m.read ct) with
  | err e => exact ⟨_, _, rfl, rfl, rfl, fun _ _ => rfl, by simp, .inl ⟨rfl, by simp⟩⟩
  | panic => exact ⟨_, _, rfl, rfl, rfl, fun _ _ => rfl, by simp, .inl ⟨rfl, by simp⟩⟩
  | ok x =>
    have hxl := cbcCrypt_length (cbcDecBlocks_length C key) hx
    obtain ⟨h1, h2, h3⟩ := h
    have hget : (m.write ct x).get ct.arr = overwrite (m.get ct.arr) ct.off x := by rw [Mem.write, Mem.get_put_same _ _ _ h1]
    have hread : (m.write ct x).read ct = x := by
      simp only [Mem.read, hget]
      have := overwrite_at (b := m.get ct.arr) (i := ct.off) (x := x) (by omega)
      rw [hxl, hl] at this
      exact this
    have hin : ct.In (m.write ct x) := ⟨by simpa [Mem.write] using h1, h2, by rw [hget, overwrite_length (by omega)]; exact h3⟩
    have hu := unpadM_spec hin
    refine ⟨_, _, rfl, ?_, by simp [Mem.write], fun i hi => by rw [Mem.write, Mem.get_put_ne _ _ _ _ hi], hu.2, .inr ⟨x, rfl, hread, hget⟩⟩
    simp only [Res.bind]
    rw [hu.1, hread]

end Verif
