import Verif.Spec.MapDoc
import Verif.Lemmas.Mbmap
import Verif.Lemmas.Text
import Verif.Lemmas.IntText
import Verif.Lemmas.Points

/-!
# Lemmas about map documents
-/

namespace Verif
open Spec

theorem packF_of_encodes {f : IntFmt} (hb : f.bytes = 2 ∨ f.bytes = 4 ∨ f.bytes = 8) {v : Int} {d : Bytes}
    (h : f.Encodes v d) : packF f v = .ok d := by
  obtain ⟨d', hd'⟩ := (packF_ok_iff hb v).2 ⟨h.2.1, h.2.2.1⟩
  rw [hd', Encodes_inj (packF_encodes hb hd') h]

theorem beEnc_of_encodes {k n : Nat} (hb : k = 2 ∨ k = 4 ∨ k = 8) {d : Bytes}
    (h : IntFmt.Encodes ⟨k, false⟩ n d) : beEnc k n = d := by
  have hp := packF_of_encodes hb h
  unfold packF at hp
  rw [if_neg (by simp)] at hp
  unfold packU at hp
  split at hp
  · simpa using hp
  · simp at hp

theorem elemFmt_bytes {ty : Text} {f : IntFmt} (h : elemFmt ty = some f) :
    f.bytes = 2 ∨ f.bytes = 4 ∨ f.bytes = 8 := by
  unfold elemFmt at h
  repeat' split at h
  all_goals simp at h
  all_goals subst h; simp

theorem elemInt_of_encodes {f : IntFmt} (hb : f.bytes = 2 ∨ f.bytes = 4 ∨ f.bytes = 8) {s : Text} {v : Int}
    {rs : List Reg} (hv : pyInt 0 s = some v) (h : f.Encodes v (regBytes rs)) :
    elemInt f.signed f.bytes s = .ok (.int rs.length, some (regBytes rs)) := by
  have h1 := packF_of_encodes hb h
  unfold packF at h1
  unfold elemInt
  rw [hv]
  dsimp only
  rw [h1]
  have h2 : f.bytes / 2 = rs.length := by
    have := h.1
    rw [regBytes_length] at this; omega
  rw [h2]; rfl

theorem hexNibble_facts {c : Char} {x : Nat} (h : hexNibble c = some x) :
    digitOf 16 c = some x ∧ x < 16 ∧ isPySpace c = false ∧ c ≠ '-' ∧ c ≠ '+' ∧ c ≠ '_' ∧ c ≠ 'x' ∧ c ≠ 'X' ∧
      c ≠ ' ' := by
  have key : ∀ n : Fin 128, ∀ x, hexNibble (Char.ofNat n) = some x →
      digitOf 16 (Char.ofNat n) = some x ∧ x < 16 ∧ isPySpace (Char.ofNat n) = false ∧ Char.ofNat n ≠ '-' ∧
      Char.ofNat n ≠ '+' ∧ Char.ofNat n ≠ '_' ∧ Char.ofNat n ≠ 'x' ∧ Char.ofNat n ≠ 'X' ∧ Char.ofNat n ≠ ' ' := by
    have : ∀ n : Fin 128, match hexNibble (Char.ofNat n) with
      | none => True
      | some x => digitOf 16 (Char.ofNat n) = some x ∧ x < 16 ∧ isPySpace (Char.ofNat n) = false ∧
        Char.ofNat n ≠ '-' ∧
        Char.ofNat n ≠ '+' ∧ Char.ofNat n ≠ '_' ∧ Char.ofNat n ≠ 'x' ∧ Char.ofNat n ≠ 'X' ∧ Char.ofNat n ≠ ' ' := by
      intro n
      cases h : hexNibble (Char.ofNat n) with
      | none => trivial
      | some x =>
        revert h
        revert n x
        have : ∀ n : Fin 128, ∀ x, x ∈ hexNibble (Char.ofNat n) → digitOf 16 (Char.ofNat n) = some x ∧ x < 16 ∧
          isPySpace (Char.ofNat n) = false ∧ Char.ofNat n ≠ '-' ∧
          Char.ofNat n ≠ '+' ∧ Char.ofNat n ≠ '_' ∧ Char.ofNat n ≠ 'x' ∧ Char.ofNat n ≠ 'X' ∧
          Char.ofNat n ≠ ' ' := by decide +kernel
        intro n x h
        exact this n x h
    intro n x hx
    have := this n
    rw [hx] at this
    exact this
  have hlt : c.toNat < 128 := by
    apply Classical.byContradiction
    intro hc
    unfold hexNibble at h
    have hv : ∀ d : Char, d.toNat < 128 → ¬ c ≤ d := by
      intro d hd hle
      have : c.toNat ≤ d.toNat := hle
      omega
    rw [if_neg (fun hh => hv '9' (by decide) hh.2), if_neg (fun hh => hv 'f' (by decide) hh.2),
      if_neg (fun hh => hv 'F' (by decide) hh.2)] at h
    simp at h
  have := key ⟨c.toNat, hlt⟩ x
  simp only [Char.ofNat_toNat] at this
  exact this h

theorem pyInt_hexpair {a b : Char} {x y : Nat} (ha : hexNibble a = some x) (hb : hexNibble b = some y) :
    pyInt 16 [a, b] = some ((16 * x + y : Nat) : Int) := by
  obtain ⟨a1, a2, a3, a4, a5, a6, a7, a8, _⟩ := hexNibble_facts ha
  obtain ⟨b1, b2, b3, b4, b5, b6, b7, b8, _⟩ := hexNibble_facts hb
  unfold pyInt
  rw [pyStrip_self (by simp [a3, b3])]
  have hbody : intBody 16 [a, b] = some (16 * x + y) := by
    have hd : digitsVal 16 [a, b] = some (16 * x + y) := by
      rw [digitsVal, a1]
      dsimp only
      rw [digitsAux.eq_def]
      dsimp only
      rw [if_neg b6, b1]
      dsimp only
      rw [digitsAux.eq_def]
      dsimp only
      rw [Nat.mul_comm]
    rw [intBody.eq_def]
    split
    · rename_i heq
      simp only [List.cons.injEq] at heq
      obtain ⟨_, rfl, _⟩ := heq
      rw [if_neg (by simp [b7, b8]), if_neg (by omega), if_neg (by omega), if_neg (by omega)]
      exact hd
    · simpa using hd
  split
  · rename_i heq
    simp only [List.cons.injEq] at heq
    exact absurd heq.1 a4
  · rename_i heq
    simp only [List.cons.injEq] at heq
    exact absurd heq.1 a5
  · rw [hbody]; rfl

theorem hexPairs_of_hexText {s : Text} {d : Bytes} (h : HexText s d) : hexPairs s = .ok d := by
  induction h with
  | nil => rfl
  | cons ha hb _ ih =>
    rename_i a b x y s d hs
    obtain ⟨_, hx, _⟩ := hexNibble_facts ha
    obtain ⟨_, hy, _⟩ := hexNibble_facts hb
    rw [hexPairs, pyInt_hexpair ha hb]
    dsimp only
    have hp : packU 1 ((16 * x + y : Nat) : Int) = .ok [BitVec.ofNat 8 (16 * x + y)] := by
      unfold packU
      rw [if_pos (by constructor <;> omega)]
      have : ((16 * x + y : Nat) : Int).toNat = 16 * x + y := by omega
      rw [this]
      simp [beEnc]
    rw [hp, ih]
    rfl

theorem HexText.length {s : Text} {d : Bytes} (h : HexText s d) : s.length = 2 * d.length := by
  induction h with
  | nil => rfl
  | cons _ _ _ ih => simp only [List.length_cons, ih]; omega

instance (e : Elem) (k : String) (d n : Int) : Decidable (AttrInt e k d n) := by
  unfold AttrInt
  split <;> infer_instance

/-- The code computes the registers of an element. -/
theorem elemData_of_holds (F : FloatText) (e : Elem) (rs : List Reg) (h : ElemHolds F e rs) :
    ∃ n, AttrInt e "len" 0 n ∧
      elemData F ((e.get "type").getD (t!"hexstr")) n e.text = .ok (.int rs.length, some (regBytes rs)) := by
  obtain ⟨n, hn, h⟩ := h
  refine ⟨n, hn, ?_⟩
  dsimp only at h
  generalize (e.get "type").getD (t!"hexstr") = ty at h
  have htxt : ∀ t : Text, textOr e.text t = elemTxt e t := fun t => rfl
  unfold elemData
  dsimp only
  rcases h with ⟨f, v, h1, h2, h3⟩ | ⟨b, h1, h2, h3⟩ | ⟨b, h1, h2, h3⟩ | ⟨h1, h2, h3, h4⟩ | ⟨d, h1, h2, h3, h4, h5, h6⟩
  · have hs : ¬ (ty = t!"string" ∨ ty = t!"hexstr") := by
      rintro (rfl | rfl) <;> simp [elemFmt] at h1
    rw [if_neg hs, htxt]
    have hi := elemInt_of_encodes (elemFmt_bytes h1) ((pyInt_iff _ _).2 h2) h3
    unfold elemFmt at h1
    split at h1
    · rename_i c; simp only [Option.some.injEq] at h1; subst h1; rw [if_pos c]; exact hi
    rename_i c; rw [if_neg c]
    split at h1
    · rename_i c; simp only [Option.some.injEq] at h1; subst h1; rw [if_pos c]; exact hi
    rename_i c; rw [if_neg c]
    split at h1
    · rename_i c; simp only [Option.some.injEq] at h1; subst h1; rw [if_pos c]; exact hi
    rename_i c; rw [if_neg c]
    split at h1
    · rename_i c; simp only [Option.some.injEq] at h1; subst h1; rw [if_pos c]; exact hi
    rename_i c; rw [if_neg c]
    split at h1
    · rename_i c; simp only [Option.some.injEq] at h1; subst h1; rw [if_pos c]; exact hi
    rename_i c; rw [if_neg c]
    split at h1
    · rename_i c; simp only [Option.some.injEq] at h1; subst h1; rw [if_pos c]; exact hi
    simp at h1
  · subst h1
    rw [htxt, show (if (t!"f32" = t!"string" ∨ t!"f32" = t!"hexstr") then ([] : Text) else ['0']) = ['0'] from if_neg (by decide)]
    rw [if_neg (by decide), if_neg (by decide), if_neg (by decide), if_neg (by decide),
      if_neg (by decide), if_neg (by decide), if_pos rfl, h2]
    have hl : rs.length = 2 := by have := h3.1; rw [regBytes_length] at this; dsimp only at this; omega
    have hp2 : beEnc 4 b.toNat = regBytes rs := beEnc_of_encodes (by simp) h3
    rw [hl, ← hp2]; rfl
  · subst h1
    rw [htxt, show (if (t!"f64" = t!"string" ∨ t!"f64" = t!"hexstr") then ([] : Text) else ['0']) = ['0'] from if_neg (by decide)]
    rw [if_neg (by decide), if_neg (by decide), if_neg (by decide), if_neg (by decide),
      if_neg (by decide), if_neg (by decide), if_neg (by decide), if_pos rfl, h2]
    have hl : rs.length = 4 := by have := h3.1; rw [regBytes_length] at this; dsimp only at this; omega
    have hp2 : beEnc 8 b.toNat = regBytes rs := beEnc_of_encodes (by simp) h3
    rw [hl, ← hp2]; rfl
  · subst h1
    rw [htxt, show (if (t!"string" = t!"string" ∨ t!"string" = t!"hexstr") then ([] : Text) else ['0']) = [] from if_pos (by decide)]
    rw [if_neg (by decide), if_neg (by decide), if_neg (by decide), if_neg (by decide),
      if_neg (by decide), if_neg (by decide), if_neg (by decide), if_neg (by decide), if_pos rfl]
    have hl : latin1Enc (elemTxt e []) = .ok ((elemTxt e []).map fun c => BitVec.ofNat 8 c.toNat) := by
      unfold latin1Enc
      rw [if_pos]
      rw [List.all_eq_true]
      intro c hc
      simpa using h3 c hc
    rw [hl]
    dsimp only
    rw [if_neg (by omega), h4]
    have hlen : (n : Int) = rs.length := by
      have := congrArg List.length h4
      rw [regBytes_length] at this
      simp only [List.length_take, List.length_append, List.length_replicate, List.length_map] at this
      omega
    rw [hlen]
    congr 2
    congr 1
    simp only [Int.toNat_natCast]
    unfold packStr
    rw [List.take_append]
    congr 1
    rw [List.take_replicate]
    congr 1
    simp only [List.length_map]; omega
  · subst h1
    rw [htxt, show (if (t!"hexstr" = t!"string" ∨ t!"hexstr" = t!"hexstr") then ([] : Text) else ['0']) = [] from if_pos (by decide)]
    rw [if_neg (by decide), if_neg (by decide), if_neg (by decide), if_neg (by decide),
      if_neg (by decide), if_neg (by decide), if_neg (by decide), if_neg (by decide), if_neg (by decide), if_pos rfl]
    have hl := h3.length
    generalize (elemTxt e []).filter (· != ' ') = hx at h3 hl
    rw [if_neg (by omega), if_neg (by omega), hexPairs_of_hexText h3]
    dsimp only
    have hlen : (n : Int) = rs.length := by
      have := congrArg List.length h6
      rw [regBytes_length] at this
      simp only [List.length_append, List.length_replicate] at this
      omega
    have hpad : ((Num.int n).sub (.quarter hx.length)).toInt = n - (d.length / 2 : Nat) := by
      simp only [Num.int, Num.sub, Num.quarter, Num.toInt]
      rw [show 4 * n - (hx.length : Int) = 4 * (n - (d.length / 2 : Nat)) by omega]
      exact Int.mul_tdiv_cancel_left _ (by decide)
    rw [hpad]
    by_cases hz : 0 < 2 * (n - ((d.length / 2 : Nat) : Int))
    · rw [if_pos hz, h6, ← hlen, show (2 * (n - ((d.length / 2 : Nat) : Int))).toNat = 2 * n.toNat - d.length by omega]
    · rw [if_neg hz, h6, hlen]
      have hd : d ≠ [] := by
        rintro rfl
        simp at hz; omega
      rw [if_neg hd]
      rw [show 2 * (rs.length : Int).toNat - d.length = 0 by omega]
      simp

/-- First offset after the last block (0 without blocks). -/
def endOf (bs : List Blk) : Int :=
  match bs.getLast? with
  | some b => b.stop
  | none => 0

/-- Add registers after the blocks. -/
def blkAdd (bs : List Blk) (o : Int) (rs : List Reg) (access : Text) : List Blk :=
  match bs.getLast? with
  | none => [⟨o, rs, access⟩]
  | some l => if endOf bs < o then bs ++ [⟨o, rs, access⟩] else bs.dropLast ++ [{ l with regs := l.regs ++ rs }]

theorem lastNext_blk (bs : List Blk) : lastNext (bs.map Blk.toRegs) = .int (endOf bs) := by
  unfold lastNext endOf
  rw [List.getLast?_map]
  cases bs.getLast? with
  | none => rfl
  | some b =>
    simp only [Option.map_some, Blk.toRegs, Blk.stop, Num.int, Num.add, Bool.or_false, Num.mk.injEq, true_and]
    omega

theorem addRegs_blk (bs : List Blk) (o : Int) (rs : List Reg) (access : Text) :
    addRegs (bs.map Blk.toRegs) (.int o) (.int rs.length) (some (regBytes rs)) access =
      .ok ((blkAdd bs o rs access).map Blk.toRegs) := by
  unfold addRegs blkAdd
  rw [lastNext_blk, List.getLast?_map]
  cases hl : bs.getLast? with
  | none => rfl
  | some l =>
    simp only [Option.map_some]
    by_cases h : endOf bs < o
    · rw [if_pos (by simp only [Num.int]; omega), if_pos h]
      simp [Blk.toRegs]
    · rw [if_neg (by simp only [Num.int]; omega), if_neg h]
      simp only [Blk.toRegs, List.map_append, List.map_dropLast, List.map_cons, List.map_nil, regBytes_append]
      congr 3
      simp only [Num.int, Num.add, Bool.or_false, List.length_append, Regs.mk.injEq, Num.mk.injEq, true_and, and_true]
      omega

theorem eq_dropLast_append {α} {l : List α} {x : α} (h : l.getLast? = some x) : l = l.dropLast ++ [x] := by
  have hne : l ≠ [] := by rintro rfl; simp at h
  rw [List.getLast?_eq_some_getLast hne, Option.some.injEq] at h
  rw [← h, List.dropLast_concat_getLast]

theorem gapped_stop_le {bs : List Blk} (hg : Gapped bs) {b : Blk} (hb : b ∈ bs) : b.stop ≤ endOf bs := by
  have hne : bs ≠ [] := by rintro rfl; simp at hb
  unfold endOf
  rw [List.getLast?_eq_some_getLast hne]
  dsimp only
  have he := List.dropLast_concat_getLast hne
  rw [← he] at hb hg
  rcases List.mem_append.1 hb with h | h
  · have := (List.pairwise_append.1 hg).2.2 b h (bs.getLast hne) (by simp)
    have h2 : (bs.getLast hne).off ≤ (bs.getLast hne).stop := by simp only [Blk.stop]; omega
    omega
  · simp only [List.mem_singleton] at h
    rw [h]

theorem blkAdd_gapped {bs : List Blk} (hg : Gapped bs) {o : Int} (rs : List Reg) (access : Text) :
    Gapped (blkAdd bs o rs access) := by
  unfold blkAdd
  cases hl : bs.getLast? with
  | none => simp [Gapped]
  | some l =>
    dsimp only
    by_cases h : endOf bs < o
    · rw [if_pos h]
      apply List.pairwise_append.2
      refine ⟨hg, by simp, ?_⟩
      intro a ha b hb
      simp only [List.mem_singleton] at hb
      subst hb
      have := gapped_stop_le hg ha
      dsimp only; omega
    · rw [if_neg h]
      have he := eq_dropLast_append hl
      rw [he] at hg
      obtain ⟨h1, _, h3⟩ := List.pairwise_append.1 hg
      apply List.pairwise_append.2
      refine ⟨h1, by simp, ?_⟩
      intro a ha b hb
      simp only [List.mem_singleton] at hb
      subst hb
      exact h3 a ha l (by simp)

theorem blkAdd_end {bs : List Blk} {o : Int} (rs : List Reg) (access : Text) (ho : endOf bs ≤ o) :
    endOf (blkAdd bs o rs access) = o + rs.length := by
  unfold blkAdd
  cases hl : bs.getLast? with
  | none => simp [endOf, Blk.stop]
  | some l =>
    dsimp only
    by_cases h : endOf bs < o
    · rw [if_pos h]; simp [endOf, Blk.stop]
    · rw [if_neg h]
      have : endOf bs = l.stop := by unfold endOf; rw [hl]
      simp only [endOf, List.getLast?_append, List.getLast?_singleton, Option.some_or, Blk.stop, List.length_append] at *
      omega

theorem blkMem_append_left {as : List Blk} (bs : List Blk) {a : Int} (h : ∃ b ∈ as, b.off ≤ a ∧ a < b.stop) :
    blkMem (as ++ bs) a = blkMem as a := by
  induction as with
  | nil => obtain ⟨b, hb, _⟩ := h; simp at hb
  | cons c as ih =>
    rw [List.cons_append, blkMem, blkMem]
    by_cases hc : c.off ≤ a ∧ a < c.stop
    · rw [if_pos hc, if_pos hc]
    · rw [if_neg hc, if_neg hc]
      apply ih
      obtain ⟨b, hb, hb2⟩ := h
      rcases List.mem_cons.1 hb with rfl | hb
      · exact absurd hb2 hc
      · exact ⟨b, hb, hb2⟩

theorem blkMem_append_right {as : List Blk} (bs : List Blk) {a : Int} (h : ∀ b ∈ as, ¬ (b.off ≤ a ∧ a < b.stop)) :
    blkMem (as ++ bs) a = blkMem bs a := by
  induction as with
  | nil => rfl
  | cons c as ih =>
    rw [List.cons_append, blkMem, if_neg (h c (by simp))]
    exact ih fun b hb => h b (by simp [hb])

theorem blkMem_single (b : Blk) (a : Int) :
    blkMem [b] a = if b.off ≤ a ∧ a < b.off + b.regs.length then b.regs[(a - b.off).toNat]? else none := rfl

theorem blkAdd_mem {bs : List Blk} (hg : Gapped bs) {o : Int} (rs : List Reg) (access : Text) (ho : endOf bs ≤ o)
    (a : Int) :
    blkMem (blkAdd bs o rs access) a = if o ≤ a ∧ a < o + rs.length then rs[(a - o).toNat]? else blkMem bs a := by
  have hbelow : o ≤ a → ∀ b ∈ bs, ¬ (b.off ≤ a ∧ a < b.stop) := by
    intro h b hb
    have := gapped_stop_le hg hb
    omega
  unfold blkAdd
  cases hl : bs.getLast? with
  | none =>
    have : bs = [] := by
      cases bs with
      | nil => rfl
      | cons b bs => simp at hl
    subst this
    exact blkMem_single _ _
  | some l =>
    dsimp only
    by_cases h : endOf bs < o
    · rw [if_pos h]
      by_cases hx : ∃ b ∈ bs, b.off ≤ a ∧ a < b.stop
      · have hna : ¬ (o ≤ a ∧ a < o + rs.length) := by
          intro ha
          obtain ⟨b, hb, hb2⟩ := hx
          exact hbelow ha.1 b hb hb2
        rw [if_neg hna, blkMem_append_left _ hx]
      · have hx2 : ∀ b ∈ bs, ¬ (b.off ≤ a ∧ a < b.stop) := fun b hb hb2 => hx ⟨b, hb, hb2⟩
        rw [blkMem_append_right _ hx2, blkMem_none hx2]
        exact blkMem_single _ _
    · rw [if_neg h]
      have he := eq_dropLast_append hl
      have hend : endOf bs = l.off + l.regs.length := by unfold endOf; rw [hl]; rfl
      generalize hdl : bs.dropLast = init at he
      subst he
      by_cases hx : ∃ b ∈ init, b.off ≤ a ∧ a < b.stop
      · have hna : ¬ (o ≤ a ∧ a < o + rs.length) := by
          intro ha
          obtain ⟨b, hb, hb2⟩ := hx
          exact hbelow ha.1 b (by simp [hb]) hb2
        rw [if_neg hna, blkMem_append_left _ hx, blkMem_append_left _ hx]
      · have hx2 : ∀ b ∈ init, ¬ (b.off ≤ a ∧ a < b.stop) := fun b hb hb2 => hx ⟨b, hb, hb2⟩
        rw [blkMem_append_right _ hx2, blkMem_append_right _ hx2, blkMem_single, blkMem_single]
        dsimp only
        rw [List.length_append]
        have hend2 : o = l.off + l.regs.length := by omega
        by_cases h1 : l.off ≤ a ∧ a < l.off + l.regs.length
        · have hA : l.off ≤ a ∧ a < l.off + ((l.regs.length + rs.length : Nat) : Int) := by omega
          have hB : ¬ (o ≤ a ∧ a < o + rs.length) := by omega
          rw [if_pos hA, if_neg hB, if_pos h1, List.getElem?_append_left (by omega)]
        · by_cases h2 : o ≤ a ∧ a < o + rs.length
          · have hA : l.off ≤ a ∧ a < l.off + ((l.regs.length + rs.length : Nat) : Int) := by omega
            rw [if_pos hA, if_pos h2, List.getElem?_append_right (by omega)]
            congr 1; omega
          · have hA : ¬ (l.off ≤ a ∧ a < l.off + ((l.regs.length + rs.length : Nat) : Int)) := by omega
            rw [if_neg hA, if_neg h2, if_neg h1]

/-- What loading the elements of a document does. -/
theorem fromXmlLoop_spec (F : FloatText) (es : List Elem) (ls : List (Option Int × List Reg)) (hd : DocHolds F es ls)
    (bs : List Blk) (hg : Gapped bs) :
    (∀ ps, place (endOf bs) ls = some ps → ∃ bs', fromXmlLoop F es (bs.map Blk.toRegs) (.int (endOf bs)) =
      (bs'.map Blk.toRegs, .ok ()) ∧ Gapped bs' ∧
      ∀ a, blkMem bs' a = if (∃ p ∈ ps, p.1 ≤ a ∧ a < p.1 + p.2.length) then placedMem ps a else blkMem bs a) ∧
    (place (endOf bs) ls = none → (fromXmlLoop F es (bs.map Blk.toRegs) (.int (endOf bs))).2 = .error .modbusMapError) := by
  induction es generalizing ls bs with
  | nil =>
    cases ls with
    | cons l ls => simp [DocHolds] at hd
    | nil =>
      refine ⟨?_, by simp [place]⟩
      intro ps hps
      simp only [place, Option.some.injEq] at hps
      subst hps
      exact ⟨bs, rfl, hg, by simp⟩
  | cons e es ih =>
    cases ls with
    | nil => simp [DocHolds] at hd
    | cons l ls =>
      obtain ⟨o, rs⟩ := l
      obtain ⟨he, ho, hd⟩ := hd
      obtain ⟨n, hn, hel⟩ := elemData_of_holds F e rs he
      rw [fromXmlLoop]
      have hoff : elemOffset e (Num.int (endOf bs)) = some (Num.int (o.getD (endOf bs))) := by
        unfold elemOffset
        cases hx : e.get "offset" with
        | none => rw [hx] at ho; dsimp only at ho ⊢; subst ho; rfl
        | some s =>
          rw [hx] at ho
          obtain ⟨i, h1, h2⟩ := ho
          subst h2
          dsimp only
          rw [(pyInt10_iff _ _).2 h1]; rfl
      rw [hoff]
      dsimp only
      have hn' : elemLen e = some n := by
        unfold AttrInt at hn
        unfold elemLen
        cases hx : e.get "len" with
        | none => rw [hx] at hn; exact congrArg some hn.symm
        | some s => rw [hx] at hn; exact (pyInt10_iff _ _).2 hn
      rw [hn']
      dsimp only
      rw [lastNext_blk, place]
      by_cases hlt : o.getD (endOf bs) < endOf bs
      · have hA : (Num.int (o.getD (endOf bs))).q < (Num.int (endOf bs)).q := by simp only [Num.int]; omega
        rw [if_pos hA, if_pos hlt]
        simp
      · have hA : ¬ (Num.int (o.getD (endOf bs))).q < (Num.int (endOf bs)).q := by simp only [Num.int]; omega
        rw [if_neg hA, if_neg hlt, hel]
        dsimp only
        rw [addRegs_blk]
        dsimp only
        have hadd : (Num.int (o.getD (endOf bs))).add (Num.int rs.length) =
            .int (endOf (blkAdd bs (o.getD (endOf bs)) rs ((e.get "access").getD (t!"r")))) := by
          rw [blkAdd_end _ _ (by omega)]
          simp only [Num.int, Num.add, Bool.or_false, Num.mk.injEq, true_and]; omega
        rw [hadd]
        obtain ⟨i1, i2⟩ := ih ls hd _ (blkAdd_gapped hg rs ((e.get "access").getD (t!"r")) (o := o.getD (endOf bs)))
        rw [blkAdd_end _ _ (by omega)] at i1 i2
        rw [blkAdd_end _ _ (by omega)]
        constructor
        · intro ps hps
          cases hp : place (o.getD (endOf bs) + rs.length) ls with
          | none => rw [hp] at hps; simp at hps
          | some qs =>
            rw [hp] at hps
            simp only [Option.some.injEq] at hps
            subst hps
            obtain ⟨bs', j1, j2, j3⟩ := i1 qs hp
            refine ⟨bs', j1, j2, ?_⟩
            intro a
            rw [j3 a, blkAdd_mem hg rs _ (by omega)]
            have hpos : ∀ (ls : List (Option Int × List Reg)) (nx : Int) (qs : List (Int × List Reg)),
                place nx ls = some qs → ∀ q ∈ qs, nx ≤ q.1 := by
              intro ls
              induction ls with
              | nil => intro nx qs hq; simp only [place, Option.some.injEq] at hq; subst hq; simp
              | cons l ls ih =>
                obtain ⟨o', rs'⟩ := l
                intro nx qs hq
                rw [place] at hq
                by_cases hh : o'.getD nx < nx
                · rw [if_pos hh] at hq; simp at hq
                · rw [if_neg hh] at hq
                  cases hp2 : place (o'.getD nx + rs'.length) ls with
                  | none => rw [hp2] at hq; simp at hq
                  | some qs' =>
                    rw [hp2] at hq
                    simp only [Option.some.injEq] at hq
                    subst hq
                    intro q hq
                    rcases List.mem_cons.1 hq with rfl | hq
                    · dsimp only; omega
                    · have := ih _ _ hp2 q hq; omega
            have hq := hpos ls _ qs hp
            by_cases hx : ∃ p ∈ qs, p.1 ≤ a ∧ a < p.1 + p.2.length
            · obtain ⟨p, hp1, hp2⟩ := hx
              rw [if_pos ⟨p, hp1, hp2⟩, if_pos ⟨p, by simp [hp1], hp2⟩, placedMem, if_neg]
              have := hq p hp1
              omega
            · rw [if_neg hx]
              by_cases hr : o.getD (endOf bs) ≤ a ∧ a < o.getD (endOf bs) + rs.length
              · rw [if_pos hr, if_pos ⟨(o.getD (endOf bs), rs), by simp, hr⟩, placedMem, if_pos hr]
              · rw [if_neg hr, if_neg]
                rintro ⟨p, hp1, hp2⟩
                rcases List.mem_cons.1 hp1 with rfl | hp1
                · exact hr hp2
                · exact hx ⟨p, hp1, hp2⟩
        · intro hp
          cases hp2 : place (o.getD (endOf bs) + rs.length) ls with
          | some qs => rw [hp2] at hp; simp at hp
          | none => exact i2 hp2

end Verif
