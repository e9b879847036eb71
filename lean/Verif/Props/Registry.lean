import Verif.Model.Registry

/-!
# C22: sharing of serial ports between RTU devices
-/

namespace Verif

/-- A call is legal: a device is opened only if no open device has the same port and slave id, and
only open devices are closed. -/
def LegalOp (s : Ports) : PortOp → Prop
  | .opn slave name _ _ _ => ∀ dv ∈ s.devs, dv.live = true → ¬ (dv.name = name ∧ dv.slave = slave)
  | .cls d => ∃ dv : RtuDev, s.devs[d]? = some dv ∧ dv.live = true

/-- Every call of a history is legal when it is made. -/
def LegalRun : Ports → List PortOp → Prop
  | _, [] => True
  | s, o :: os => LegalOp s o ∧ LegalRun (portStep s o) os

/-- The invariant of legal histories. -/
structure PortInv (s : Ports) : Prop where
  reg : ∀ (n : String) (c : Nat), dictGet s.registry n = some c →
    ∃ cl : RtuClient, s.clients[c]? = some cl ∧ cl.name = n ∧ cl.isOpen = true ∧ cl.devices ≠ []
  dev : ∀ (c : Nat) (cl : RtuClient) (k : Int) (d : Nat), s.clients[c]? = some cl → dictGet cl.devices k = some d →
    ∃ dv : RtuDev, s.devs[d]? = some dv ∧ dv.live = true ∧ dv.slave = k ∧ dv.client = c ∧ dv.name = cl.name
  live : ∀ (d : Nat) (dv : RtuDev), s.devs[d]? = some dv → dv.live = true →
    dictGet s.registry dv.name = some dv.client ∧
    ∃ cl : RtuClient, s.clients[dv.client]? = some cl ∧ dictGet cl.devices dv.slave = some d
  opn : ∀ (c : Nat) (cl : RtuClient), s.clients[c]? = some cl → cl.isOpen = true → dictGet s.registry cl.name = some c

theorem PortInv.init : PortInv Ports.init :=
  ⟨by simp [Ports.init, dictGet], by simp [Ports.init], by simp [Ports.init], by simp [Ports.init]⟩

theorem lt_of_get {α} {l : List α} {i : Nat} {x : α} (h : l[i]? = some x) : i < l.length := by
  exact (List.getElem?_eq_some_iff.1 h).1

/-- Adding a device to client `c` of a port. -/
theorem PortInv.add {clients : List RtuClient} {registry : List (String × Nat)} {devs : List RtuDev}
    {slave : Int} {name : String} {c : Nat} {cl : RtuClient}
    (hcl : clients[c]? = some cl) (hname : cl.name = name) (hopen : cl.isOpen = true)
    (hreg : dictGet registry name = some c)
    (reg : ∀ n c', n ≠ name → dictGet registry n = some c' →
      ∃ cl : RtuClient, clients[c']? = some cl ∧ cl.name = n ∧ cl.isOpen = true ∧ cl.devices ≠ [])
    (dev : ∀ (c : Nat) (cl : RtuClient) (k : Int) (d : Nat), clients[c]? = some cl → dictGet cl.devices k = some d →
      ∃ dv : RtuDev, devs[d]? = some dv ∧ dv.live = true ∧ dv.slave = k ∧ dv.client = c ∧ dv.name = cl.name)
    (live : ∀ (d : Nat) (dv : RtuDev), devs[d]? = some dv → dv.live = true →
      dictGet registry dv.name = some dv.client ∧
      ∃ cl : RtuClient, clients[dv.client]? = some cl ∧ dictGet cl.devices dv.slave = some d)
    (opn : ∀ (c : Nat) (cl : RtuClient), clients[c]? = some cl → cl.isOpen = true → dictGet registry cl.name = some c)
    (hleg : ∀ dv ∈ devs, dv.live = true → ¬ (dv.name = name ∧ dv.slave = slave)) :
    PortInv ⟨clients.modify c fun cl => { cl with devices := dictSet cl.devices slave devs.length },
      registry, devs ++ [⟨slave, name, c, true⟩]⟩ := by
  have hmod : ∀ c', (clients.modify c fun cl =>
      { cl with devices := dictSet cl.devices slave devs.length })[c']? =
      if c = c' then some { cl with devices := dictSet cl.devices slave devs.length } else clients[c']? := by
    intro c'
    rw [List.getElem?_modify]
    by_cases h : c = c'
    · subst h; simp [hcl]
    · simp [h]
  have hdevs : ∀ d, (devs ++ [(⟨slave, name, c, true⟩ : RtuDev)])[d]? =
      if d = devs.length then some ⟨slave, name, c, true⟩ else devs[d]? := by
    intro d
    by_cases h : d < devs.length
    · rw [List.getElem?_append_left h, if_neg (by omega)]
    · by_cases h2 : d = devs.length
      · subst h2; simp
      · rw [if_neg h2, List.getElem?_eq_none (by simp; omega), List.getElem?_eq_none (by omega)]
  refine ⟨?_, ?_, ?_, ?_⟩
  · intro n c' hn
    dsimp only at hn ⊢
    rw [hmod]
    by_cases hnn : n = name
    · subst hnn
      rw [hreg] at hn
      simp only [Option.some.injEq] at hn
      rw [if_pos hn]
      exact ⟨_, rfl, hname, hopen, dictSet_ne_nil _ _ _⟩
    · obtain ⟨cl', h1, h2, h3⟩ := reg n c' hnn hn
      have : c ≠ c' := by
        rintro rfl
        rw [hcl] at h1
        simp only [Option.some.injEq] at h1
        rw [← h1, hname] at h2
        exact hnn h2.symm
      rw [if_neg this]
      exact ⟨cl', h1, h2, h3⟩
  · intro c' cl' k d hc' hd
    dsimp only at hc' ⊢
    rw [hmod] at hc'
    rw [hdevs]
    by_cases h : c = c'
    · subst h
      rw [if_pos rfl] at hc'
      simp only [Option.some.injEq] at hc'
      subst hc'
      dsimp only at hd
      rw [dictGet_set] at hd
      by_cases hk : k = slave
      · rw [if_pos hk] at hd
        simp only [Option.some.injEq] at hd
        rw [if_pos hd.symm]
        exact ⟨_, rfl, rfl, hk.symm, rfl, hname.symm⟩
      · rw [if_neg hk] at hd
        obtain ⟨dv, h1, h2⟩ := dev c cl k d hcl hd
        have := lt_of_get h1
        rw [if_neg (by omega)]
        exact ⟨dv, h1, h2⟩
    · rw [if_neg h] at hc'
      obtain ⟨dv, h1, h2⟩ := dev c' cl' k d hc' hd
      have := lt_of_get h1
      rw [if_neg (by omega)]
      exact ⟨dv, h1, h2⟩
  · intro d dv hd hlive
    dsimp only at hd ⊢
    rw [hdevs] at hd
    by_cases h : d = devs.length
    · rw [if_pos h] at hd
      simp only [Option.some.injEq] at hd
      subst hd
      dsimp only
      rw [hmod, if_pos rfl]
      exact ⟨hreg, _, rfl, by dsimp only; rw [dictGet_set, if_pos rfl, h]⟩
    · rw [if_neg h] at hd
      obtain ⟨h1, cl', h2, h3⟩ := live d dv hd hlive
      refine ⟨h1, ?_⟩
      rw [hmod]
      by_cases hc : c = dv.client
      · rw [if_pos hc]
        refine ⟨_, rfl, ?_⟩
        dsimp only
        rw [← hc, hcl] at h2
        simp only [Option.some.injEq] at h2
        subst h2
        rw [dictGet_set, if_neg]
        · exact h3
        · intro hs
          obtain ⟨dv', h4, _, _, _, h5⟩ := dev c cl dv.slave d hcl h3
          rw [hd] at h4
          simp only [Option.some.injEq] at h4
          subst h4
          exact hleg dv (List.mem_of_getElem? hd) hlive ⟨by rw [h5, hname], hs⟩
      · rw [if_neg hc]
        exact ⟨cl', h2, h3⟩
  · intro c' cl' hc' ho
    dsimp only at hc' ⊢
    rw [hmod] at hc'
    by_cases h : c = c'
    · rw [if_pos h] at hc'
      simp only [Option.some.injEq] at hc'
      subst hc'
      dsimp only
      rw [hname, hreg, h]
    · rw [if_neg h] at hc'
      exact opn c' cl' hc' ho

theorem PortInv.step {s : Ports} (hi : PortInv s) {o : PortOp} (ho : LegalOp s o) :
    PortInv (portStep s o) := by
  cases o with
  | opn slave name baud parity ok =>
    simp only [portStep, rtuOpen, rtuClientFor]
    simp only [LegalOp] at ho
    cases hr : dictGet s.registry name with
    | some c =>
      obtain ⟨cl, h1, h2, h3, h4⟩ := hi.reg name c hr
      simp only [h1]
      by_cases hb : baud ≠ none ∧ baud ≠ some cl.baud
      · rw [if_pos hb]; exact hi
      · rw [if_neg hb]
        by_cases hp : parity ≠ none ∧ parity ≠ some cl.parity
        · rw [if_pos hp]; exact hi
        · rw [if_neg hp]
          exact PortInv.add h1 h2 h3 hr (fun n c' _ h => hi.reg n c' h) hi.dev hi.live hi.opn ho
    | none =>
      simp only
      cases ok with
      | false => exact hi
      | true =>
        simp only [if_true]
        have hget : ∀ c, (s.clients ++ [(⟨name, baud.getD 9600, parity.getD "N", true, []⟩ : RtuClient)])[c]? =
            if c = s.clients.length then some ⟨name, baud.getD 9600, parity.getD "N", true, []⟩
            else s.clients[c]? := by
          intro c
          by_cases h : c < s.clients.length
          · rw [List.getElem?_append_left h, if_neg (by omega)]
          · by_cases h2 : c = s.clients.length
            · subst h2; simp
            · rw [if_neg h2, List.getElem?_eq_none (by simp; omega), List.getElem?_eq_none (by omega)]
        refine PortInv.add (cl := ⟨name, baud.getD 9600, parity.getD "N", true, []⟩)
          (by rw [hget, if_pos rfl]) rfl rfl (by rw [dictGet_set, if_pos rfl]) ?_ ?_ ?_ ?_ ho
        · intro n c' hn h
          rw [dictGet_set, if_neg hn] at h
          obtain ⟨cl, h1, h2⟩ := hi.reg n c' h
          have := lt_of_get h1
          exact ⟨cl, by rw [hget, if_neg (by omega)]; exact h1, h2⟩
        · intro c cl k d hc hd
          rw [hget] at hc
          by_cases h : c = s.clients.length
          · rw [if_pos h] at hc
            simp only [Option.some.injEq] at hc
            subst hc
            simp [dictGet] at hd
          · rw [if_neg h] at hc
            exact hi.dev c cl k d hc hd
        · intro d dv hd hl
          obtain ⟨h1, cl, h2, h3⟩ := hi.live d dv hd hl
          have hne : dv.name ≠ name := by intro h; rw [h, hr] at h1; simp at h1
          have := lt_of_get h2
          refine ⟨by rw [dictGet_set, if_neg hne]; exact h1, cl, ?_, h3⟩
          rw [hget, if_neg (by omega)]; exact h2
        · intro c cl hc hop
          rw [hget] at hc
          by_cases h : c = s.clients.length
          · rw [if_pos h] at hc
            simp only [Option.some.injEq] at hc
            subst hc
            dsimp only
            rw [dictGet_set, if_pos rfl, h]
          · rw [if_neg h] at hc
            have h1 := hi.opn c cl hc hop
            have hne : cl.name ≠ name := by intro h; rw [h, hr] at h1; simp at h1
            rw [dictGet_set, if_neg hne]; exact h1
  | cls d =>
    obtain ⟨dv, hd, hlive⟩ := ho
    obtain ⟨hreg, cl, hcl, hdk⟩ := hi.live d dv hd hlive
    obtain ⟨dv', hd', _, _, _, hdn⟩ := hi.dev _ _ _ _ hcl hdk
    rw [hd] at hd'
    simp only [Option.some.injEq] at hd'
    subst hd'
    obtain ⟨cl', hcl', _, hopen, _⟩ := hi.reg _ _ hreg
    rw [hcl] at hcl'
    simp only [Option.some.injEq] at hcl'
    subst hcl'
    have hdlt := lt_of_get hd
    have hclt := lt_of_get hcl
    have hdevs : ∀ e, (s.devs.set d { dv with live := false })[e]? =
        if e = d then some { dv with live := false } else s.devs[e]? := by
      intro e
      rw [List.getElem?_set]
      by_cases h : e = d
      · subst h; simp [hdlt]
      · rw [if_neg (Ne.symm h), if_neg h]
    -- no other live device has the same client and slave id
    have huniq : ∀ e dv2, s.devs[e]? = some dv2 → dv2.live = true → dv2.client = dv.client →
        dv2.slave = dv.slave → e = d := by
      intro e dv2 he hl hc hs
      obtain ⟨_, cl2, h2, h3⟩ := hi.live e dv2 he hl
      rw [hc, hcl] at h2
      simp only [Option.some.injEq] at h2
      subst h2
      rw [hs, hdk] at h3
      simpa using h3.symm
    have hset : ∀ (x : RtuClient) c', (s.clients.set dv.client x)[c']? =
        if c' = dv.client then some x else s.clients[c']? := by
      intro x c'
      rw [List.getElem?_set]
      by_cases h : c' = dv.client
      · subst h; simp [hclt]
      · rw [if_neg (Ne.symm h), if_neg h]
    simp only [portStep, rtuClose, hd, rtuRemoveDevice, hcl]
    by_cases hemp : dictDel cl.devices dv.slave = []
    · simp only [if_pos hemp]
      -- the last device of the port
      have honly : ∀ e dv2, s.devs[e]? = some dv2 → dv2.live = true → dv2.name = dv.name → e = d := by
        intro e dv2 he hl hn
        obtain ⟨h1, cl2, h2, h3⟩ := hi.live e dv2 he hl
        rw [hn, hreg] at h1
        simp only [Option.some.injEq] at h1
        rw [← h1, hcl] at h2
        simp only [Option.some.injEq] at h2
        subst h2
        have h4 := dictGet_del cl.devices dv.slave dv2.slave
        rw [hemp] at h4
        simp only [dictGet] at h4
        by_cases hk : dv2.slave = dv.slave
        · exact huniq e dv2 he hl h1.symm hk
        · rw [if_neg hk, h3] at h4; simp at h4
      refine ⟨?_, ?_, ?_, ?_⟩
      · intro n c' hn
        dsimp only at hn ⊢
        rw [dictGet_del] at hn
        by_cases h : n = cl.name
        · rw [if_pos h] at hn; simp at hn
        · rw [if_neg h] at hn
          obtain ⟨cl2, h1, h2, h3⟩ := hi.reg n c' hn
          rw [hset, if_neg]
          · exact ⟨cl2, h1, h2, h3⟩
          · rintro rfl
            rw [hcl] at h1
            simp only [Option.some.injEq] at h1
            exact h (by rw [← h2, h1])
      · intro c' cl2 k e hc' he
        dsimp only at hc' ⊢
        rw [hset] at hc'
        by_cases h : c' = dv.client
        · rw [if_pos h] at hc'
          simp only [Option.some.injEq] at hc'
          subst hc'
          dsimp only at he
          rw [hemp] at he
          simp [dictGet] at he
        · rw [if_neg h] at hc'
          obtain ⟨dv2, h1, h2, h3, h4, h5⟩ := hi.dev c' cl2 k e hc' he
          rw [hdevs, if_neg]
          · exact ⟨dv2, h1, h2, h3, h4, h5⟩
          · rintro rfl
            rw [hd] at h1
            simp only [Option.some.injEq] at h1
            exact h (by rw [← h4, h1])
      · intro e dv2 he hl
        dsimp only at he ⊢
        rw [hdevs] at he
        by_cases h : e = d
        · rw [if_pos h] at he
          simp only [Option.some.injEq] at he
          subst he; simp at hl
        · rw [if_neg h] at he
          obtain ⟨h1, cl2, h2, h3⟩ := hi.live e dv2 he hl
          have hne : dv2.name ≠ dv.name := fun hn => h (honly e dv2 he hl hn)
          rw [dictGet_del, if_neg (by rw [← hdn]; exact hne), hset, if_neg]
          · exact ⟨h1, cl2, h2, h3⟩
          · intro hc
            rw [hc, hcl] at h2
            simp only [Option.some.injEq] at h2
            subst h2
            obtain ⟨dv3, h4, _, _, _, h5⟩ := hi.dev _ _ _ _ hcl h3
            rw [he] at h4
            simp only [Option.some.injEq] at h4
            subst h4
            exact hne (by rw [h5, hdn])
      · intro c' cl2 hc' ho
        dsimp only at hc' ⊢
        rw [hset] at hc'
        by_cases h : c' = dv.client
        · rw [if_pos h] at hc'
          simp only [Option.some.injEq] at hc'
          subst hc'; simp at ho
        · rw [if_neg h] at hc'
          have h1 := hi.opn c' cl2 hc' ho
          rw [dictGet_del, if_neg]
          · exact h1
          · intro hn
            rw [hn, ← hdn, hreg] at h1
            simp only [Option.some.injEq] at h1
            exact h h1.symm
    · simp only [if_neg hemp]
      refine ⟨?_, ?_, ?_, ?_⟩
      · intro n c' hn
        dsimp only at hn ⊢
        obtain ⟨cl2, h1, h2, h3, h4⟩ := hi.reg n c' hn
        rw [hset]
        by_cases h : c' = dv.client
        · rw [if_pos h]
          rw [h, hcl] at h1
          simp only [Option.some.injEq] at h1
          subst h1
          exact ⟨_, rfl, h2, h3, hemp⟩
        · rw [if_neg h]; exact ⟨cl2, h1, h2, h3, h4⟩
      · intro c' cl2 k e hc' he
        dsimp only at hc' ⊢
        rw [hset] at hc'
        have hcommon : ∀ cl3, s.clients[c']? = some cl3 → dictGet cl3.devices k = some e → cl3.name = cl2.name →
            e ≠ d → ∃ dx : RtuDev, (s.devs.set d { dv with live := false })[e]? = some dx ∧ dx.live = true ∧
              dx.slave = k ∧ dx.client = c' ∧ dx.name = cl2.name := by
          intro cl3 g1 g2 g3 g4
          obtain ⟨dv2, h1, h2, h3, h4, h5⟩ := hi.dev c' cl3 k e g1 g2
          rw [hdevs, if_neg g4]
          exact ⟨dv2, h1, h2, h3, h4, by rw [h5, g3]⟩
        by_cases h : c' = dv.client
        · rw [if_pos h] at hc'
          simp only [Option.some.injEq] at hc'
          subst hc'
          dsimp only at he
          rw [dictGet_del] at he
          by_cases hk : k = dv.slave
          · rw [if_pos hk] at he; simp at he
          · rw [if_neg hk] at he
            refine hcommon cl (by rw [h]; exact hcl) he rfl ?_
            rintro rfl
            obtain ⟨dv2, h1, _, h3, _⟩ := hi.dev _ cl k e hcl he
            rw [hd] at h1
            simp only [Option.some.injEq] at h1
            exact hk (by rw [← h3, h1])
        · rw [if_neg h] at hc'
          refine hcommon cl2 hc' he rfl ?_
          rintro rfl
          obtain ⟨dv2, h1, _, _, h4, _⟩ := hi.dev c' cl2 k e hc' he
          rw [hd] at h1
          simp only [Option.some.injEq] at h1
          exact h (by rw [← h4, h1])
      · intro e dv2 he hl
        dsimp only at he ⊢
        rw [hdevs] at he
        by_cases h : e = d
        · rw [if_pos h] at he
          simp only [Option.some.injEq] at he
          subst he; simp at hl
        · rw [if_neg h] at he
          obtain ⟨h1, cl2, h2, h3⟩ := hi.live e dv2 he hl
          refine ⟨h1, ?_⟩
          rw [hset]
          by_cases hc : dv2.client = dv.client
          · rw [if_pos hc]
            refine ⟨_, rfl, ?_⟩
            dsimp only
            rw [hc, hcl] at h2
            simp only [Option.some.injEq] at h2
            subst h2
            rw [dictGet_del, if_neg]
            · exact h3
            · exact fun hs => h (huniq e dv2 he hl hc hs)
          · rw [if_neg hc]; exact ⟨cl2, h2, h3⟩
      · intro c' cl2 hc' ho
        dsimp only at hc' ⊢
        rw [hset] at hc'
        by_cases h : c' = dv.client
        · rw [if_pos h] at hc'
          simp only [Option.some.injEq] at hc'
          subst hc'
          dsimp only
          rw [h]
          exact hi.opn _ _ hcl hopen
        · rw [if_neg h] at hc'
          exact hi.opn c' cl2 hc' ho

theorem PortInv.run {s : Ports} (hi : PortInv s) {ops : List PortOp} (ho : LegalRun s ops) :
    PortInv (portRun s ops) := by
  induction ops generalizing s with
  | nil => exact hi
  | cons o os ih => exact ih (hi.step ho.1) ho.2

/-- C22, full statement: after any history of opening devices and closing open devices, the port of
every open device is open and known to the registry. -/
def C22_full : Prop :=
  ∀ ops : List PortOp, ∀ dv ∈ (portRun Ports.init ops).devs, dv.live = true →
    ∃ cl : RtuClient, (portRun Ports.init ops).clients[dv.client]? = some cl ∧ cl.isOpen = true ∧
      dictGet (portRun Ports.init ops).registry dv.name = some dv.client

/-- C22 is violated if two devices on a port have the same slave id: closing one closes the port of
the other (modbus/client.py:204, 215-222). -/
theorem C22_violated_duplicate : ¬ C22_full := by
  intro h
  obtain ⟨cl, h1, h2, _⟩ := h [.opn 1 "com1" none none true, .opn 1 "com1" none none true, .cls 0]
    ⟨1, "com1", 0, true⟩ (by decide +kernel) rfl
  have : ((portRun Ports.init [.opn 1 "com1" none none true, .opn 1 "com1" none none true, .cls 0]).clients[0]?.map
    (·.isOpen)) = some false := by decide +kernel
  rw [h1] at this
  simp [h2] at this

/-- C22 is violated also by closing a device twice: the second `close` makes the registry forget the
client that a later device on the same port uses, so the next device on the port gets another
client for it. -/
theorem C22_violated_double_close :
    let s := portRun Ports.init [.opn 1 "com1" none none true, .cls 0, .opn 2 "com1" none none true, .cls 0]
    s.devs[1]?.map (·.live) = some true ∧ dictGet s.registry "com1" = none ∧
    (portStep s (.opn 3 "com1" (some 19200) none true)).devs[2]?.map (·.client) = some 2 := by
  decide +kernel

/-- C22, the part that holds: after every history in which devices that are open at the same time on a
port have different slave ids and only open devices are closed:
all open devices on a port share one client; the port of an open device is open; a port is open
exactly if some device on it is open, by exactly one client, and otherwise forgotten. -/
theorem C22_sharing_partial (ops : List PortOp) (hlegal : LegalRun Ports.init ops) :
    let s := portRun Ports.init ops
    (∀ dv1 ∈ s.devs, ∀ dv2 ∈ s.devs, dv1.live = true → dv2.live = true → dv1.name = dv2.name →
      dv1.client = dv2.client) ∧
    (∀ dv ∈ s.devs, dv.live = true → ∃ cl : RtuClient, s.clients[dv.client]? = some cl ∧ cl.name = dv.name ∧
      cl.isOpen = true) ∧
    (∀ name, (∃ (c : Nat) (cl : RtuClient), s.clients[c]? = some cl ∧ cl.name = name ∧ cl.isOpen = true) ↔
      ∃ dv ∈ s.devs, dv.live = true ∧ dv.name = name) ∧
    (∀ (c1 c2 : Nat) (cl1 cl2 : RtuClient), s.clients[c1]? = some cl1 → s.clients[c2]? = some cl2 → cl1.isOpen = true →
      cl2.isOpen = true → cl1.name = cl2.name → c1 = c2) ∧
    (∀ name, dictGet s.registry name = none ↔ ¬ ∃ dv ∈ s.devs, dv.live = true ∧ dv.name = name) := by
  have hi : PortInv (portRun Ports.init ops) := PortInv.init.run hlegal
  dsimp only
  generalize portRun Ports.init ops = s at hi
  have hlive : ∀ dv ∈ s.devs, dv.live = true → dictGet s.registry dv.name = some dv.client := by
    intro dv hm hl
    obtain ⟨d, hd⟩ := List.getElem?_of_mem hm
    exact (hi.live d dv hd hl).1
  have hregd : ∀ n c, dictGet s.registry n = some c → ∃ dv ∈ s.devs, dv.live = true ∧ dv.name = n := by
    intro n c h
    obtain ⟨cl, h1, h2, _, h4⟩ := hi.reg n c h
    rw [Ne, dictGet_eq_nil, Classical.not_forall] at h4
    obtain ⟨k, hk⟩ := h4
    obtain ⟨d, hd⟩ := Option.ne_none_iff_exists'.1 hk
    obtain ⟨dv, h5, h6, _, _, h7⟩ := hi.dev c cl k d h1 hd
    exact ⟨dv, List.mem_of_getElem? h5, h6, by rw [h7, h2]⟩
  refine ⟨?_, ?_, ?_, ?_, ?_⟩
  · intro dv1 h1 dv2 h2 l1 l2 hn
    have e1 := hlive dv1 h1 l1
    have e2 := hlive dv2 h2 l2
    rw [hn, e2] at e1
    simpa using e1.symm
  · intro dv hm hl
    obtain ⟨cl, h1, h2, h3, _⟩ := hi.reg _ _ (hlive dv hm hl)
    exact ⟨cl, h1, h2, h3⟩
  · intro name
    constructor
    · rintro ⟨c, cl, h1, h2, h3⟩
      have := hi.opn c cl h1 h3
      rw [h2] at this
      exact hregd _ _ this
    · rintro ⟨dv, hm, hl, hn⟩
      obtain ⟨cl, h1, h2, h3, _⟩ := hi.reg _ _ (hlive dv hm hl)
      exact ⟨_, cl, h1, by rw [h2, hn], h3⟩
  · intro c1 c2 cl1 cl2 h1 h2 o1 o2 hn
    have e1 := hi.opn c1 cl1 h1 o1
    have e2 := hi.opn c2 cl2 h2 o2
    rw [hn, e2] at e1
    simpa using e1.symm
  · intro name
    constructor
    · rintro h ⟨dv, hm, hl, rfl⟩
      rw [hlive dv hm hl] at h; simp at h
    · intro h
      cases hr : dictGet s.registry name with
      | none => rfl
      | some c => exact absurd (hregd name c hr) h

/-- Non-vacuity: a legal history with two ports. -/
example : LegalRun Ports.init [.opn 1 "com1" none none true, .opn 2 "com1" (some 9600) none true,
    .opn 1 "com2" (some 19200) (some "E") true, .cls 0, .opn 1 "com1" none none true, .cls 2] := by
  refine ⟨?_, ?_, ?_, ?_, ?_, ?_, trivial⟩
  · simp only [LegalOp]; decide +kernel
  · simp only [LegalOp]; decide +kernel
  · simp only [LegalOp]; decide +kernel
  · exact ⟨⟨1, "com1", 0, true⟩, by decide +kernel, rfl⟩
  · simp only [LegalOp]; decide +kernel
  · exact ⟨⟨1, "com2", 1, true⟩, by decide +kernel, rfl⟩

/-- C22: in any state whatsoever, a request for a known port with a different baud rate or parity is
refused with a client error and changes nothing. -/
theorem C22_mismatch_refused (s : Ports) (slave : Int) (name : String) (baud : Option Int)
    (parity : Option String) (ok : Bool) (c : Nat) (cl : RtuClient)
    (hreg : dictGet s.registry name = some c) (hcl : s.clients[c]? = some cl)
    (hmis : (∃ b, baud = some b ∧ b ≠ cl.baud) ∨ (∃ p, parity = some p ∧ p ≠ cl.parity)) :
    rtuOpen s slave name baud parity ok = (s, .error .modbusClientError) := by
  have : rtuClientFor s name baud parity ok = (s, .error .modbusClientError) := by
    unfold rtuClientFor
    rw [hreg]
    simp only [hcl]
    rcases hmis with ⟨b, rfl, hb⟩ | ⟨p, rfl, hp⟩
    · rw [if_pos]; simp [hb]
    · by_cases h1 : baud ≠ none ∧ baud ≠ some cl.baud
      · rw [if_pos h1]
      · rw [if_neg h1, if_pos]; simp [hp]
  unfold rtuOpen
  rw [this]

/-- C22: a successfully opened device uses the line parameters it asked for (or 9600 baud without
parity if it is the first one on the port and did not ask). -/
theorem C22_parameters (s s' : Ports) (slave : Int) (name : String) (baud : Option Int)
    (parity : Option String) (ok : Bool) (d : Nat)
    (h : rtuOpen s slave name baud parity ok = (s', .ok d)) :
    ∃ dv cl, s'.devs[d]? = some dv ∧ dv.slave = slave ∧ dv.name = name ∧ dv.live = true ∧
      s'.clients[dv.client]? = some cl ∧
      (∀ b, baud = some b → cl.baud = b) ∧ (∀ p, parity = some p → cl.parity = p) ∧
      (dictGet s.registry name = none →
        cl.name = name ∧ cl.isOpen = true ∧ cl.baud = baud.getD 9600 ∧ cl.parity = parity.getD "N") := by
  unfold rtuOpen at h
  have key : ∀ s1 c, rtuClientFor s name baud parity ok = (s1, .ok c) → s1.devs = s.devs ∧
      ∃ cl : RtuClient, s1.clients[c]? = some cl ∧
      (∀ b, baud = some b → cl.baud = b) ∧ (∀ p, parity = some p → cl.parity = p) ∧
      (dictGet s.registry name = none →
        cl.name = name ∧ cl.isOpen = true ∧ cl.baud = baud.getD 9600 ∧ cl.parity = parity.getD "N") := by
    intro s1 c h
    unfold rtuClientFor at h
    cases hr : dictGet s.registry name with
    | some c' =>
      rw [hr] at h
      simp only at h
      cases hc : s.clients[c']? with
      | none => rw [hc] at h; simp at h
      | some cl =>
        rw [hc] at h
        simp only at h
        by_cases hb : baud ≠ none ∧ baud ≠ some cl.baud
        · rw [if_pos hb] at h; simp at h
        · rw [if_neg hb] at h
          by_cases hp : parity ≠ none ∧ parity ≠ some cl.parity
          · rw [if_pos hp] at h; simp at h
          · rw [if_neg hp] at h
            simp only [Prod.mk.injEq, Except.ok.injEq] at h
            obtain ⟨rfl, rfl⟩ := h
            refine ⟨rfl, cl, hc, ?_, ?_, by simp⟩
            · rintro b rfl; simpa [eq_comm] using hb
            · rintro p rfl; simpa [eq_comm] using hp
    | none =>
      rw [hr] at h
      cases ok with
      | false => simp at h
      | true =>
        simp only [if_true, Prod.mk.injEq, Except.ok.injEq] at h
        obtain ⟨rfl, rfl⟩ := h
        refine ⟨rfl, ⟨name, baud.getD 9600, parity.getD "N", true, []⟩, by simp, ?_, ?_,
          fun _ => ⟨rfl, rfl, rfl, rfl⟩⟩
        · rintro b rfl; rfl
        · rintro p rfl; rfl
  rcases hx : rtuClientFor s name baud parity ok with ⟨s1, e | c⟩
  · rw [hx] at h; simp at h
  · rw [hx] at h
    simp only [Prod.mk.injEq, Except.ok.injEq] at h
    obtain ⟨rfl, rfl⟩ := h
    obtain ⟨_, cl, h1, h2, h3, h4⟩ := key s1 c hx
    refine ⟨⟨slave, name, c, true⟩, { cl with devices := dictSet cl.devices slave s1.devs.length },
      by simp, rfl, rfl, rfl, ?_, h2, h3, h4⟩
    dsimp only
    rw [List.getElem?_modify]
    simp [h1]

/-- Non-vacuity. -/
example : (rtuOpen (portRun Ports.init [.opn 1 "com1" none none true]) 2 "com1" (some 19200) none true).2 =
      .error .modbusClientError ∧
    (rtuOpen (portRun Ports.init [.opn 1 "com1" none none true]) 2 "com1" (some 9600) none true).2 =
      .ok 1 := by decide +kernel

end Verif
