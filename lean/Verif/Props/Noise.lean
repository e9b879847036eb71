import Verif.Lemmas.Truthful

/-!
# C90: noise on a serial line does not give wrong values
-/

namespace Verif
open Verif.Spec

/-! ### Reading registers -/

/-- C90: on a noisy line a read of registers does not change them; what it returns is never more than was asked for, and if it is as
much, it is the contents of these registers. -/
theorem C90_registers {σ} {slave : Slave σ} {abs : σ → Mem} {sid : Byte} (hc : NoisyRtu slave abs sid) (l l' : Line σ) (addr : Int)
    (count max : Nat) (r : Py (Option Bytes)) (h : rtuRead slave l sid.toNat 3 addr count max = (l', r)) :
    abs l'.dev = abs l.dev ∧
    ∀ d, r = .ok (some d) → d.length ≤ 2 * count ∧ (d.length = 2 * count → d = memRead (abs l.dev) addr.toNat count) := by
  obtain ⟨h1, h2, _⟩ := rtuReadF_noise hc max _ addr count [] l l' r h
  refine ⟨h1, ?_⟩
  intro d hd
  obtain ⟨h3, h4⟩ := h2 d hd
  simp only [List.length_nil, Nat.zero_add, List.nil_append] at h3 h4
  exact ⟨h3, fun hl => (h4 hl).2⟩

/-- C90: if the beginning of an altered reply is never, by coincidence, a valid frame itself, then a read returns the contents of the registers or raises. -/
theorem C90_registers_clear {σ} {slave : Slave σ} {abs : σ → Mem} {sid : Byte} (hc : ClearRtu slave abs sid) (l l' : Line σ) (addr : Int)
    (count max : Nat) (r : Option Bytes) (h : rtuRead slave l sid.toNat 3 addr count max = (l', .ok r)) :
    r = some (memRead (abs l.dev) addr.toNat count) := by
  obtain ⟨_, h2, h3⟩ := rtuReadF_noise hc max _ addr count [] l l' _ h
  obtain ⟨d, rfl, hd⟩ := h3 (fun g k hg hk => hg k hk) r rfl
  obtain ⟨_, h4⟩ := h2 d rfl
  have := (h4 hd).2
  simp only [List.nil_append] at this
  rw [this]

/-! ### Reading points -/

/-- C90: reading a model on a noisy line does not change the registers. Afterwards, the model is as it was, or each of its points has the value
of its registers; the latter only if `read_points` returns. -/
theorem C90_points_partial {σ} {slave : Slave σ} {abs : σ → Mem} {sid : Byte} (hc : NoisyRtu slave abs sid) (l l' : Line σ) (m m' : MdlObj)
    (r : Py Unit) (hm : ModelOK m) (ht : Tiles m.addr (m.addr + m.len) (readPlan m)) (hpos : ∀ c ∈ readPlan m, 0 ≤ c.2)
    (h : readPoints (rtuDev slave sid.toNat) l m = (l', m', r)) :
    regMem (abs l'.dev) = regMem (abs l.dev) ∧ (m' = m ∨ (r = .ok () ∧ ModelRead (regMem (abs l.dev)) m m')) := by
  have h1 := truthful_keeps (noisy_truthful hc) l m
  have h2 := readPoints_truthful (noisy_truthful hc) l m hm ht hpos
  rw [h] at h1 h2
  exact ⟨h1, h2⟩

/-- C90: unless the beginning of an altered reply is by coincidence a valid frame, `read_points` gives all points of the model the values of their
registers, or raises. -/
theorem C90_points_clear {σ} {slave : Slave σ} {abs : σ → Mem} {sid : Byte} (hc : ClearRtu slave abs sid) (l l' : Line σ) (m m' : MdlObj)
    (hm : ModelOK m) (ht : Tiles m.addr (m.addr + m.len) (readPlan m)) (hpos : ∀ c ∈ readPlan m, 0 ≤ c.2)
    (h : readPoints (rtuDev slave sid.toNat) l m = (l', m', .ok ())) : ModelRead (regMem (abs l.dev)) m m' := by
  have hfull : FullReplies (rtuDev slave sid.toNat) (fun _ => True) := by
    intro s a n s' r _ hn hr
    exact ⟨trivial, clear_exact hc s a n r (by rw [hr]) hn⟩
  obtain ⟨log, h1, _⟩ := C33_refreshed_partial hfull l l' trivial m m' hm ht hpos h
  obtain ⟨_, h2⟩ := reads_truthful (noisy_truthful hc) _ _ _ _ _ _ h1 ht hpos
  obtain ⟨m2, h3, h4⟩ := readPoints_mem _ l l' m log (regMem (abs l.dev)) hm ht h1 h2
  rw [h] at h3
  cases h3
  exact h4

/-- C90: the same for all models of a device, in one `read_points` of the device: each model is as it was or has been read correctly. -/
theorem C90_device_partial {σ} {slave : Slave σ} {abs : σ → Mem} {sid : Byte} (hc : NoisyRtu slave abs sid) (ms : List MdlObj) (l : Line σ)
    (hms : ∀ m ∈ ms, ModelOK m ∧ Tiles m.addr (m.addr + m.len) (readPlan m) ∧ ∀ c ∈ readPlan m, 0 ≤ c.2) :
    List.Forall₂ (fun m m' => m' = m ∨ ModelRead (regMem (abs l.dev)) m m') ms (readModels (rtuDev slave sid.toNat) ms l).2.1 := by
  induction ms generalizing l with
  | nil => exact .nil
  | cons m ms ih =>
    rw [readModels]
    obtain ⟨k1, k2, k3⟩ := hms m (by simp)
    rcases e : readPoints (rtuDev slave sid.toNat) l m with ⟨l1, m1, r⟩
    obtain ⟨h1, h2⟩ := C90_points_partial hc l l1 m m1 r k1 k2 k3 e
    have h2' : m1 = m ∨ ModelRead (regMem (abs l.dev)) m m1 := h2.imp id (·.2)
    cases r with
    | error x =>
      refine .cons h2' ?_
      clear ih hms
      induction ms with
      | nil => exact .nil
      | cons a ms ih => exact .cons (.inl rfl) ih
    | ok u =>
      dsimp only
      have := ih l1 (fun m hm => hms m (by simp [hm]))
      rw [h1] at this
      exact .cons h2' this

/-! ### Writing -/

/-- C90: a write on a noisy line stores the beginning of its data and changes nothing else, whatever its outcome; if it returns, all data has been stored. -/
theorem C90_write {σ} {slave : Slave σ} {abs : σ → Mem} {sid : Byte} (hc : NoisyRtu slave abs sid) (l l' : Line σ) (addr : Int) (data : Bytes)
    (max : Nat) (res : Py Unit) (h : rtuWrite slave l sid.toNat addr data max = (l', res)) :
    ∃ k, k ≤ data.length ∧ k % 2 = 0 ∧ abs l'.dev = memWrite (abs l.dev) addr.toNat (data.take k) ∧ (res = .ok () → k = data.length) :=
  (rtuWriteF_noise hc max _ addr data l l' res h).1

theorem noisy_mimics {σ} {slave : Slave σ} {abs : σ → Mem} {sid : Byte} (hc : NoisyRtu slave abs sid) :
    MimicsWrite (rtuDev slave sid.toNat) (rtuDev (idealSlave sid) sid.toNat) (fun l t => t.dev = abs l.dev) := by
  constructor
  intro l t a d l' hr h
  exact (rtuWriteF_noise hc 125 _ a d l l' _ h).2 rfl t hr

/-- C90: if `write_points` returns on a noisy line, the registers of each modified point contain the encoding of its value and all other registers are
unchanged. -/
theorem C90_write_points_partial {σ} {slave : Slave σ} {abs : σ → Mem} {sid : Byte} (hc : NoisyRtu slave abs sid) (l l' : Line σ) (m m' : MdlObj)
    (hsep : Separate m) (hwr : ∀ b ∈ m.blocks, dirtyLen b.pts ≤ 123)
    (hpts : ∀ b ∈ m.blocks, ∀ p ∈ b.pts, p.dirty → 0 < p.pt.len ∧ (∃ rs, Encoded p rs) ∧ 0 ≤ p.addr ∧ p.addr + p.pt.len ≤ 65536)
    (h : writePoints (rtuDev slave sid.toNat) l m = (l', m', .ok ())) :
    m' = cleanModel m ∧
    (∀ b ∈ m.blocks, ∀ p ∈ b.pts, p.dirty → ∃ rs, Encoded p rs ∧ memRegs (regMem (abs l'.dev)) p.addr p.pt.len.toNat = some rs) ∧
    ∀ x, (∀ b ∈ m.blocks, ∀ p ∈ b.pts, p.dirty → ¬ (p.addr ≤ x ∧ x < p.addr + p.pt.len)) →
      regMem (abs l'.dev) x = regMem (abs l.dev) x := by
  obtain ⟨t', h1, h2⟩ := writePoints_mimics (noisy_mimics hc) m (t := ⟨abs l.dev, []⟩) rfl h
  have hid : ConformsRtu (idealSlave sid) id sid := idealSlave_conforms sid
  obtain ⟨s', mem', w1, w2, w3, w4⟩ := C35_write_partial (rtuDev_isMem hid) ⟨abs l.dev, []⟩ _ rfl m hsep
    (fun b hb n h0 hn => ⟨h0, by have := hwr b hb; omega⟩)
    (fun b hb p hp hd => by
      obtain ⟨a1, a2, a3, a4⟩ := hpts b hb p hp hd
      refine ⟨a1, a2, ?_⟩
      intro x x1 x2
      unfold regMem
      rw [if_pos (by omega)]
      simp)
  rw [h1] at w1
  simp only [Prod.mk.injEq, and_true] at w1
  obtain ⟨rfl, rfl⟩ := w1
  have e : mem' = regMem (abs l'.dev) := by rw [w2, ← h2]; rfl
  rw [e] at w3 w4
  exact ⟨rfl, w3, w4⟩

/-! ### Scanning -/

/-- C90: scanning on a noisy line does not change the registers, and whatever its outcome, the models that it adds are the first models of the
chain in the device, in order, after one of the base addresses, where the device has `SunS`. -/
theorem C90_scan_partial {σ} {slave : Slave σ} {abs : σ → Mem} {sid : Byte} (hc : NoisyRtu slave abs sid) (lib : Int → Py ModelType)
    (prog : List MdlObj → Int → Bool) (fuel : Nat) (c c' : CliDev (Line σ)) (r : Py Unit) (hb : c.base = none)
    (h : scan fuel (rtuScanDev slave sid.toNat) lib prog c = (c', r)) :
    regMem (abs c'.st.dev) = regMem (abs c.st.dev) ∧
    ∃ fs, c'.list = c.list ++ fs.map (foundModel lib) ∧
      (fs = [] ∨ ∃ a ∈ c.bases, c'.base = some a ∧ SunSAt (regMem (abs c.st.dev)) a ∧ ChainPart (regMem (abs c.st.dev)) (a + 2) fs) := by
  have hk := scan_keeps (dev := rtuScanDev slave sid.toNat) (I := fun t : Line σ => regMem (abs t.dev) = regMem (abs c.st.dev))
    (fun t a n ht => ((noisy_truthful hc t a n).1).trans ht) (fun f hf => by cases hf) (fun s hs => hs) lib prog fuel c rfl
  rw [h] at hk
  have hs : scan fuel (rtuScanDev slave sid.toNat) lib prog c = scanBody fuel (rtuDev slave sid.toNat) lib prog c := rfl
  rw [hs] at h
  obtain ⟨fs, f1, f2, _⟩ := scanBody_truthful (noisy_truthful hc) lib prog fuel c hb
  rw [h] at f1 f2
  exact ⟨hk, fs, f1, f2⟩

/-- C90: unless the beginning of an altered reply is by coincidence a valid frame, a scan that returns has found the whole chain of models. -/
theorem C90_scan_clear {σ} {slave : Slave σ} {abs : σ → Mem} {sid : Byte} (hc : ClearRtu slave abs sid) (lib : Int → Py ModelType)
    (prog : List MdlObj → Int → Bool) (fuel : Nat) (c c' : CliDev (Line σ)) (hb : c.base = none)
    (h : scan fuel (rtuScanDev slave sid.toNat) lib prog c = (c', .ok ())) :
    ∃ a fs, a ∈ c.bases ∧ c'.base = some a ∧ SunSAt (regMem (abs c.st.dev)) a ∧ Chain (regMem (abs c.st.dev)) (a + 2) fs ∧
      c'.list = c.list ++ fs.map (foundModel lib) := by
  have hs : scan fuel (rtuScanDev slave sid.toNat) lib prog c = scanBody fuel (rtuDev slave sid.toNat) lib prog c := rfl
  rw [hs] at h
  obtain ⟨fs, f1, _, f3⟩ := scanBody_truthful (noisy_truthful hc) lib prog fuel c hb
  rw [h] at f1 f3
  obtain ⟨a, a1, a2, a3, a4⟩ := f3 (clear_exact hc) rfl
  exact ⟨a, fs, a1, a2, a3, a4, f1⟩

/-! ### What may go wrong -/

/-- A wrong byte is noise. -/
theorem altered_byte (p q : Bytes) (a b : Byte) : Altered (p ++ a :: q) (p ++ b :: q) := by
  refine .inr ⟨by simp, .inl ⟨8 * p.length, ?_⟩⟩
  intro i hi
  have e : ∀ x, wireBits (p ++ x :: q) = wireBits p ++ (wireBitsOf x ++ wireBits q) := by
    intro x; simp [wireBits]
  rw [e, e] at hi
  have hlx : ∀ x, (wireBitsOf x).length = 8 := by intro x; simp [wireBitsOf]
  have hlp : (wireBits p).length = 8 * p.length := by simp
  by_cases h1 : i < 8 * p.length
  · exact absurd (by rw [List.getElem?_append_left (by omega), List.getElem?_append_left (by omega)]) hi
  · by_cases h2 : i < 8 * p.length + 8
    · omega
    · refine absurd ?_ hi
      have key : ∀ x, (wireBits p ++ (wireBitsOf x ++ wireBits q))[i]? = (wireBits q)[i - 8 * p.length - 8]? := by
        intro x
        rw [List.getElem?_append_right (by omega), List.getElem?_append_right (by rw [hlx]; omega), hlx, hlp]
      rw [key, key]

/-- A slave (address 1) that answers only reads of the model at 40002, and of whose replies `reply` arrives. -/
def stubSlave (reply : Bytes) : Slave Unit := fun _ req =>
  ((), some (if req = rtuFrame 1 (readPdu 3 40002 7) then [reply] else []))

/-- Registers with their address as contents, but for one, which contains the CRC of an empty reply. -/
def crcMem : Mem := fun a => if a = 40002 then (modbusCRC [1, 3, 0]).setWidth 8 ++ (modbusCRC [1, 3, 0] >>> 8).setWidth 8 else BitVec.ofNat 16 a

theorem stub_noisy {fits : Bytes → Prop} (mem : Mem) (g : Bytes) (k : Nat) (h0 : fits [])
    (hg : Altered (rtuFrame 1 (3 :: 14 :: memRead mem 40002 7)) g) (hf : fits g) : NoisyLine fits (stubSlave (g.take k)) (fun _ => mem) 1 := by
  intro s req
  by_cases hr : req = rtuFrame 1 (readPdu 3 40002 7)
  · refine ⟨req, .inl (.inl rfl), ?_⟩
    rw [hr, serveRtu_frame, serve_read _ _ (.inl rfl) (by decide) (by decide)]
    refine ⟨rfl, ?_⟩
    intro chunks hch
    refine ⟨g, hg, hf, ?_⟩
    unfold stubSlave at hch
    simp only [↓reduceIte, Option.some.injEq] at hch
    subst hch
    unfold received
    rw [List.takeWhile_cons]
    split
    · simp only [List.takeWhile_nil, List.flatten_cons, List.flatten_nil, List.append_nil]
      exact List.take_prefix _ _
    · simp
  · refine ⟨[], .inr rfl, ?_⟩
    have e : serveRtu 1 mem [] = (mem, none) := by
      unfold serveRtu
      rw [if_neg]
      simp [rtuFrame]
    rw [e]
    refine ⟨rfl, ?_⟩
    intro chunks hch
    refine ⟨[], .inl rfl, h0, ?_⟩
    unfold stubSlave at hch
    rw [if_neg hr] at hch
    simp only [Option.some.injEq] at hch
    rw [← hch]
    simp [received]

/-- The property in full: on a noisy line `read_points` gives the points the values of their registers, or raises. -/
def C90_full : Prop :=
  ∀ (σ : Type) (slave : Slave σ) (abs : σ → Mem) (sid : Byte), NoisyRtu slave abs sid → ∀ (l l' : Line σ) (m m' : MdlObj), ModelOK m →
    Tiles m.addr (m.addr + m.len) (readPlan m) → (∀ c ∈ readPlan m, 0 ≤ c.2) → readPoints (rtuDev slave sid.toNat) l m = (l', m', .ok ()) →
    ModelRead (regMem (abs l.dev)) m m'

/-- C90: the code violates it. If noise turns the byte count of a reply into 0 and the register read first happens to contain the CRC of the
three bytes before it, the client takes the first five bytes for a reply without data; `read_points` then returns without having refreshed anything. -/
theorem C90_violated : ¬ C90_full := by
  intro h
  have hn : NoisyRtu (stubSlave (rtuFrame 1 [3, 0])) (fun _ => crcMem) 1 := by
    have h2 : (memRead crcMem 40002 7).take 2 = crcBytes [1, 3, 0] := by decide +kernel
    have hst := @stub_noisy (fun _ => True) crcMem
    generalize memRead crcMem 40002 7 = d at h2 hst
    have e1 : rtuFrame 1 (3 :: 14 :: d) = [1, 3] ++ 14 :: (d ++ crcBytes (1 :: 3 :: 14 :: d)) := rfl
    rw [e1] at hst
    have := hst ([1, 3] ++ 0 :: (d ++ crcBytes (1 :: 3 :: 14 :: d))) 5 trivial (altered_byte _ _ _ _) trivial
    have e2 : ([1, 3] ++ 0 :: (d ++ crcBytes (1 :: 3 :: 14 :: d)) : Bytes).take 5 = rtuFrame 1 [3, 0] := by
      have e3 : ([1, 3] ++ 0 :: (d ++ crcBytes (1 :: 3 :: 14 :: d)) : Bytes).take 5 = 1 :: 3 :: 0 :: (d ++ crcBytes (1 :: 3 :: 14 :: d)).take 2 := rfl
      have hl : 2 ≤ d.length := by
        have := congrArg List.length h2
        rw [List.length_take] at this
        simp [crcBytes] at this
        omega
      rw [e3, List.take_append_of_le_length hl, h2]
      rfl
    rw [e2] at this
    exact this
  have h2 : (readPoints (rtuDev (stubSlave (rtuFrame 1 [3, 0])) 1) ⟨(), []⟩ exModel).2 = (exModel, .ok ()) := by decide +kernel
  generalize hX : readPoints (rtuDev (stubSlave (rtuFrame 1 [3, 0])) 1) ⟨(), []⟩ exModel = X at h2
  obtain ⟨s', m', r⟩ := X
  simp only [Prod.mk.injEq] at h2
  rw [h2.1, h2.2] at hX
  have h3 := h Unit _ _ 1 hn ⟨(), []⟩ s' exModel exModel exModel_ok exModel_tiles (by rw [exModel_plan]; simp) hX
  obtain ⟨⟨rs, r1, r2, _⟩, _⟩ := h3.point 1 _ _ rfl rfl 0 _ _ rfl rfl
  have r1' : memRegs (regMem crcMem) 40005 1 = some rs := r1
  have e1 : memRegs (regMem crcMem) 40005 1 = some [(0x9c, 0x45)] := by decide +kernel
  rw [e1] at r1'
  cases r1'
  have r2' : PT.uint16.readValue (regBytes [(0x9c, 0x45)]) = .ok none := r2
  exact absurd r2' (by decide +kernel)

/-! ### Non-vacuity -/

/-- The reply to a read of the example. -/
def goodReply : Bytes := rtuFrame 1 (3 :: 14 :: memRead exMem 40002 7)

/-- The reply with a wrong byte. -/
def badReply : Bytes := goodReply.take 4 ++ 0x52 :: goodReply.drop 5

theorem badReply_noise : Altered goodReply badReply := by
  have e : goodReply = goodReply.take 4 ++ 0x42 :: goodReply.drop 5 := by decide +kernel
  have h := altered_byte (goodReply.take 4) (goodReply.drop 5) 0x42 0x52
  rw [← e] at h
  exact h

/-- A line on which one byte of the reply arrives wrong: reading raises and leaves the model as it is. -/
theorem badReply_noisy : NoisyRtu (stubSlave badReply) (fun _ => exMem) 1 := by
  have := @stub_noisy (fun _ => True) exMem badReply 19 trivial badReply_noise trivial
  have e : badReply.take 19 = badReply := by decide +kernel
  rw [e] at this
  exact this

example : (readPoints (rtuDev (stubSlave badReply) 1) ⟨(), []⟩ exModel).2 = (exModel, .error .sunSpecClientError) := by decide +kernel

/-- A line on which this reply arrives as it was sent, but no other: no beginning of it is a valid frame. -/
theorem goodReply_clear : ClearRtu (stubSlave goodReply) (fun _ => exMem) 1 := by
  have := @stub_noisy (fun g => ∀ k, k < g.length → ¬ ValidFrame (g.take k)) exMem goodReply 19 (by simp) (.inl rfl) (by
    have hl : goodReply.length = 19 := by decide +kernel
    rw [hl]
    intro k hk hv
    have h : ∀ k < 19, frameCrcOk (goodReply.take k) = false := by decide +kernel
    have := (frameCrcOk_iff _).2 hv
    rw [h k hk] at this
    cases this)
  have e : goodReply.take 19 = goodReply := by decide +kernel
  rw [e] at this
  exact this

/-- Reading the example there: it returns, hence its points have the values of the registers. -/
example : ModelRead (regMem exMem) exModel (readPoints (rtuDev (stubSlave goodReply) 1) ⟨(), []⟩ exModel).2.1 := by
  have h : (readPoints (rtuDev (stubSlave goodReply) 1) ⟨(), []⟩ exModel).2.2 = .ok () := by decide +kernel
  generalize hX : readPoints (rtuDev (stubSlave goodReply) 1) ⟨(), []⟩ exModel = X at h ⊢
  obtain ⟨l', m', r⟩ := X
  dsimp only at h
  subst h
  exact C90_points_clear goodReply_clear ⟨(), []⟩ l' exModel m' exModel_ok exModel_tiles (by rw [exModel_plan]; simp) hX

/-- The hypotheses of the scan and of writing on a noisy line: a conforming slave is a special case, as are all with noise like `badReply`. -/
theorem conforms_noisy {σ} {slave : Slave σ} {abs : σ → Mem} {sid : Byte} (hc : ConformsRtu slave abs sid) : NoisyRtu slave abs sid := by
  intro s req
  obtain ⟨h1, chunks, h2, h3⟩ := hc s req
  refine ⟨req, .inl (.inl rfl), h1, ?_⟩
  intro ch hch
  rw [h2] at hch
  cases hch
  exact ⟨_, .inl rfl, trivial, by rw [h3]; exact List.prefix_refl _⟩

end Verif
