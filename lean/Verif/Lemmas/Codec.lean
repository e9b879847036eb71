import Verif.Py.Basic

/-! Lemmas about the big-endian codec. -/

namespace Verif

@[simp] theorem beEnc_length (k n : Nat) : (beEnc k n).length = k := by
  induction k with
  | zero => rfl
  | succ k ih => simp [beEnc, ih]

theorem beDec_lt (d : Bytes) : beDec d < 256 ^ d.length := by
  induction d with
  | nil => simp [beDec]
  | cons b bs ih =>
    have hb := b.isLt
    simp only [beDec, List.length_cons, Nat.pow_succ]
    have : b.toNat * 256 ^ bs.length ≤ 255 * 256 ^ bs.length :=
      Nat.mul_le_mul_right _ (by omega)
    omega

theorem beDec_beEnc_mod (k n : Nat) : beDec (beEnc k n) = n % 256 ^ k := by
  induction k with
  | zero => simp [beEnc, beDec, Nat.mod_one]
  | succ k ih =>
    simp only [beEnc, beDec, beEnc_length, ih, BitVec.toNat_ofNat]
    have : (256:Nat) ^ (k+1) = 256 ^ k * 2 ^ 8 := by rw [Nat.pow_succ]
    rw [this, Nat.mod_mul, Nat.mul_comm, Nat.add_comm]

theorem beDec_beEnc (k n : Nat) (h : n < 256 ^ k) : beDec (beEnc k n) = n := by
  rw [beDec_beEnc_mod, Nat.mod_eq_of_lt h]

theorem beEnc_add_mul (k n m : Nat) : beEnc k (m * 256 ^ k + n) = beEnc k n := by
  induction k generalizing m with
  | zero => rfl
  | succ k ih =>
    have e : m * 256 ^ (k+1) + n = (m * 256) * 256 ^ k + n := by
      rw [Nat.pow_succ]; congr 1; rw [Nat.mul_assoc, Nat.mul_comm 256]
    simp only [beEnc]
    rw [e, ih]
    congr 1
    rw [Nat.add_comm, Nat.add_mul_div_right _ _ (Nat.pow_pos (by decide))]
    apply BitVec.eq_of_toNat_eq
    simp only [BitVec.toNat_ofNat]
    omega

theorem beEnc_beDec (d : Bytes) : beEnc d.length (beDec d) = d := by
  induction d with
  | nil => rfl
  | cons b bs ih =>
    simp only [List.length_cons, beEnc, beDec]
    rw [beEnc_add_mul, ih]
    congr 1
    rw [Nat.add_comm, Nat.add_mul_div_right _ _ (Nat.pow_pos (by decide)),
      Nat.div_eq_of_lt (beDec_lt bs)]
    simp

theorem beDec_append (a b : Bytes) : beDec (a ++ b) = beDec a * 256 ^ b.length + beDec b := by
  induction a with
  | nil => simp [beDec]
  | cons x xs ih =>
    simp only [List.cons_append, beDec, ih, List.length_append, Nat.pow_add]
    rw [Nat.add_mul, Nat.mul_assoc]; omega

theorem beDec_inj {a b : Bytes} (hl : a.length = b.length) (h : beDec a = beDec b) : a = b := by
  rw [← beEnc_beDec a, ← beEnc_beDec b, hl, h]

/-! ### struct.pack / struct.unpack -/

theorem packU_ok {k : Nat} {v : Int} {d : Bytes} (h : packU k v = .ok d) :
    0 ≤ v ∧ v < 256 ^ k ∧ d = beEnc k v.toNat := by
  unfold packU at h
  split at h
  · simp only [Except.ok.injEq] at h; exact ⟨by omega, by omega, h.symm⟩
  · simp at h

theorem packU_unpackU {k : Nat} {v : Int} {d : Bytes} (h : packU k v = .ok d) :
    unpackU k d = .ok v := by
  obtain ⟨h0, h1, rfl⟩ := packU_ok h
  unfold unpackU
  have hlt : v.toNat < 256 ^ k := by
    have e : ((256 ^ k : Nat) : Int) = 256 ^ k := Int.natCast_pow 256 k
    omega
  simp [beDec_beEnc _ _ hlt]
  omega

theorem unpackU_packU {k : Nat} {v : Int} {d : Bytes} (h : unpackU k d = .ok v) :
    packU k v = .ok d := by
  unfold unpackU at h
  split at h
  · rename_i hl
    simp only [Except.ok.injEq] at h
    subst h; subst hl
    unfold packU
    have := beDec_lt d
    have e : ((256 ^ d.length : Nat) : Int) = 256 ^ d.length := Int.natCast_pow 256 _
    have h2 : ((beDec d : Nat) : Int) < 256 ^ d.length := by omega
    simp [h2, beEnc_beDec]
  · simp at h

theorem two_dvd_pow256 (k : Nat) (hk : 0 < k) : ∃ m : Nat, 256 ^ k = 2 * m := by
  obtain ⟨k, rfl⟩ : ∃ j, k = j + 1 := ⟨k - 1, by omega⟩
  exact ⟨256 ^ k * 128, by rw [Nat.pow_succ]; omega⟩

theorem packS_unpackS {k : Nat} (hk : 0 < k) {v : Int} {d : Bytes} (h : packS k v = .ok d) :
    unpackS k d = .ok v := by
  unfold packS at h
  split at h
  · rename_i hr
    simp only [Except.ok.injEq] at h
    subst h
    unfold unpackS
    obtain ⟨m, hm⟩ := two_dvd_pow256 k hk
    have hmi : (256 : Int) ^ k = 2 * (m : Int) := by
      have e : ((256 ^ k : Nat) : Int) = 256 ^ k := Int.natCast_pow 256 k
      omega
    have hpos : 0 < m := by have : 0 < 256 ^ k := Nat.pow_pos (by decide); omega
    rw [hmi] at hr ⊢
    have hlt : (v % (2 * (m:Int))).toNat < 256 ^ k := by
      have := Int.emod_lt_of_pos v (b := 2 * (m:Int)) (by omega)
      omega
    rw [beDec_beEnc _ _ hlt, beEnc_length, hm]
    simp only [if_true, Except.ok.injEq]
    by_cases hv : 0 ≤ v
    · rw [Int.emod_eq_of_lt hv (by omega)]
      rw [if_pos (by omega)]; omega
    · have : v % (2 * (m:Int)) = v + 2 * m := by
        rw [← Int.add_mul_emod_self_left v (2 * (m:Int)) 1]
        rw [Int.emod_eq_of_lt] <;> omega
      rw [this, if_neg (by omega)]; omega
  · simp at h

theorem unpackS_packS {k : Nat} (hk : 0 < k) {v : Int} {d : Bytes} (h : unpackS k d = .ok v) :
    packS k v = .ok d := by
  unfold unpackS at h
  split at h
  · rename_i hl
    subst hl
    simp only [Except.ok.injEq] at h
    have hlt := beDec_lt d
    obtain ⟨m, hm⟩ := two_dvd_pow256 d.length hk
    have hmi : (256 : Int) ^ d.length = 2 * (m : Int) := by
      have e : ((256 ^ d.length : Nat) : Int) = 256 ^ d.length := Int.natCast_pow 256 _
      omega
    have hpos : 0 < m := by have : 0 < 256 ^ d.length := Nat.pow_pos (by decide); omega
    have hres : (v % (2 * (m:Int))).toNat = beDec d := by
      rw [hmi] at h
      split at h
      · subst h; rw [Int.emod_eq_of_lt] <;> omega
      · have : v % (2 * (m:Int)) = v + 2 * m := by
          rw [← Int.add_mul_emod_self_left v (2 * (m:Int)) 1]
          rw [Int.emod_eq_of_lt] <;> omega
        omega
    unfold packS
    rw [hmi] at h ⊢
    rw [if_pos, hres, beEnc_beDec]
    split at h <;> omega
  · simp at h

theorem packU_length {k : Nat} {v : Int} {d : Bytes} (h : packU k v = .ok d) : d.length = k := by
  obtain ⟨_, _, rfl⟩ := packU_ok h; simp

theorem packS_length {k : Nat} {v : Int} {d : Bytes} (h : packS k v = .ok d) : d.length = k := by
  unfold packS at h; split at h
  · simp only [Except.ok.injEq] at h; subst h; simp
  · simp at h

@[simp] theorem packStr_length (n : Nat) (s : Bytes) : (packStr n s).length = n := by
  simp [packStr]; omega

end Verif
