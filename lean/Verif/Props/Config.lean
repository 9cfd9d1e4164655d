import Verif.Model.Config

/-! # Properties of configurations and of starting a controller -/

namespace Xcvr

open Config

namespace Spec

/-- The address is assigned to the interface. -/
def Assigned (ifs : List InterfaceAddress) (name : List Char) (ip : Ipv6) : Prop := ⟨name, some (.in6 ip)⟩ ∈ ifs

/-- The network `fe80::/64`. -/
def LinkLocal (ip : Ipv6) : Prop := ip.toNat / 2 ^ 64 = 0xfe80000000000000

/-- `ip` comes first among the addresses of the interface that satisfy `P`. -/
def First (ifs : List InterfaceAddress) (name : List Char) (P : Ipv6 → Prop) (ip : Ipv6) : Prop :=
  P ip ∧ ∃ before after, ifs = before ++ ⟨name, some (.in6 ip)⟩ :: after ∧ ∀ other, P other → ¬ Assigned before name other

end Spec

open Spec

theorem isLinkLocal_iff (ip : Ipv6) : isLinkLocal ip = true ↔ LinkLocal ip := by
  have h : (segments ip).take 4 =
      [ip.extractLsb' 112 16, ip.extractLsb' 96 16, ip.extractLsb' 80 16, ip.extractLsb' 64 16] := rfl
  rw [isLinkLocal, h, LinkLocal]
  have hlt := ip.isLt
  simp only [List.cons_beq_cons, beq_iff_eq, Bool.and_eq_true, ← BitVec.toNat_inj, BitVec.extractLsb'_toNat,
    Nat.shiftRight_eq_div_pow, List.beq_nil_eq, List.isEmpty_nil, and_true]
  have e1 : (0xfe80 : U16).toNat = 0xfe80 := rfl
  have e2 : (0 : U16).toNat = 0 := rfl
  rw [e1, e2]
  generalize ip.toNat = n at hlt ⊢
  omega

/-- The entries of the interface with an IPv6 address, as `findSome?` sees them. -/
theorem findSome_first {β : Type} (name : List Char) (f : Ipv6 → Option β) :
    ∀ (ifs : List InterfaceAddress) (y : β),
      ifs.findSome? (fun i => if i.name = name then (i.address.bind SockAddr.ip6).bind f else none) = some y ↔
        ∃ ip, f ip = some y ∧ First ifs name (fun x => f x ≠ none) ip
  | [], y => by
    constructor
    · intro h; cases h
    · rintro ⟨ip, _, _, b, a, h, _⟩
      cases b <;> cases h
  | i :: ifs, y => by
    rw [List.findSome?_cons]
    cases hi : (if i.name = name then (i.address.bind SockAddr.ip6).bind f else none) with
    | some z =>
      obtain ⟨n, ad⟩ := i
      by_cases hn : n = name
      · subst hn
        rw [if_pos rfl] at hi
        rcases ad with _ | (ip | _)
        · cases hi
        · have hi : f ip = some z := hi
          constructor
          · intro h
            cases h
            exact ⟨ip, hi, by simp [hi], [], ifs, rfl, fun _ _ h => by cases h⟩
          · rintro ⟨ip', h1, _, b, a, h2, h3⟩
            cases b with
            | nil =>
              have h2 := (List.cons.inj h2).1
              have : ip = ip' := by
                have := congrArg InterfaceAddress.address h2
                simpa using this
              subst this
              rw [hi] at h1
              exact h1
            | cons c b =>
              have h2 := (List.cons.inj h2).1
              exact absurd (show Assigned (c :: b) n ip from by rw [Assigned, ← h2]; exact List.mem_cons_self)
                (h3 ip (by simp [hi]))
        · cases hi
      · rw [if_neg hn] at hi; cases hi
    | none =>
      rw [findSome_first name f ifs y]
      have hne : ∀ ip, f ip ≠ none → i ≠ ⟨name, some (.in6 ip)⟩ := by
        rintro ip hf rfl
        rw [if_pos rfl] at hi
        exact hf hi
      constructor
      · rintro ⟨ip, h1, h2, b, a, h3, h4⟩
        refine ⟨ip, h1, h2, i :: b, a, by rw [h3]; rfl, fun other ho hm => ?_⟩
        rcases List.mem_cons.1 hm with hm | hm
        · exact hne other ho hm.symm
        · exact h4 other ho hm
      · rintro ⟨ip, h1, h2, b, a, h3, h4⟩
        refine ⟨ip, h1, h2, ?_⟩
        cases b with
        | nil => exact absurd (List.cons.inj h3).1 (hne ip h2)
        | cons c b =>
          have h3 := List.cons.inj h3
          exact ⟨b, a, h3.2, fun other ho hm => h4 other ho (List.mem_cons_of_mem _ hm)⟩

theorem valid_iff (ifs : List InterfaceAddress) (name : List Char) (a : Ipv6) :
    isValidAddress (some ifs) name a = true ↔ First ifs name (fun _ => True) a := by
  have e : isValidAddress (some ifs) name a = (ifs.findSome? fun i =>
      if i.name = name then (i.address.bind SockAddr.ip6).bind fun ip => some (ip == a) else none).getD false := by
    rw [isValidAddress]
    congr 1
    congr 1
    funext i
    split
    · rcases i.address with _ | (_ | _) <;> rfl
    · rfl
  have hF (ip : Ipv6) : First ifs name (fun x => (fun ip => some (ip == a)) x ≠ none) ip ↔
      First ifs name (fun _ => True) ip := by simp [First]
  rw [e]
  cases h : ifs.findSome? fun i =>
      if i.name = name then (i.address.bind SockAddr.ip6).bind fun ip => some (ip == a) else none with
  | none =>
    refine ⟨nofun, fun hf => ?_⟩
    have := (findSome_first name (fun ip => some (ip == a)) ifs true).2 ⟨a, by simp, (hF a).2 hf⟩
    rw [h] at this; cases this
  | some y =>
    obtain ⟨ip, h1, h2⟩ := (findSome_first name _ ifs y).1 h
    have h1 : (ip == a) = y := Option.some.inj h1
    constructor
    · intro hy
      have hy : y = true := hy
      rw [hy] at h1
      rw [← eq_of_beq h1]
      exact (hF ip).1 h2
    · intro hf
      have := (findSome_first name (fun ip => some (ip == a)) ifs true).2 ⟨a, by simp, (hF a).2 hf⟩
      rw [h] at this
      cases this
      rfl

/-! ## C79: the address -/

/-- C79: if no address is given, the configuration uses the first address of the interface in `fe80::/64`, and if there
is none, building fails and names the interface. -/
theorem C79_link_local (ifs : List InterfaceAddress) (b : Builder) (h : b.address = none) :
    (∀ c, b.build (some ifs) = .ok c → First ifs b.interface LinkLocal c.address) ∧
    (∀ ip, First ifs b.interface LinkLocal ip → ∃ c, b.build (some ifs) = .ok c ∧ c.address = ip) ∧
    ((¬ ∃ ip, LinkLocal ip ∧ Assigned ifs b.interface ip) → b.build (some ifs) = .error (.badInterface b.interface)) := by
  have e : ifs.findSome? (firstValidAddress b.interface) = ifs.findSome? fun i =>
      if i.name = b.interface then (i.address.bind SockAddr.ip6).bind fun ip =>
        if isLinkLocal ip then some ip else none else none := by
    congr 1
    funext i
    rw [firstValidAddress]
    by_cases hn : b.interface = i.name
    · rw [if_pos hn, if_pos hn.symm]; cases i.address.bind SockAddr.ip6 <;> rfl
    · rw [if_neg hn, if_neg (Ne.symm hn)]
  have hF (ip : Ipv6) : First ifs b.interface (fun x => (fun ip => if isLinkLocal ip then some ip else none) x ≠ none) ip ↔
      First ifs b.interface LinkLocal ip := by
    have : (fun x => (fun ip => if isLinkLocal ip then some ip else none) x ≠ none) = LinkLocal := by
      funext x
      have := isLinkLocal_iff x
      by_cases hx : isLinkLocal x = true
      · simp [hx, this.1 hx]
      · simp [hx, (not_congr this).1 hx]
    rw [this]
  have key (ip : Ipv6) : ifs.findSome? (firstValidAddress b.interface) = some ip ↔ First ifs b.interface LinkLocal ip := by
    rw [e, findSome_first]
    constructor
    · rintro ⟨x, h1, h2⟩
      have : x = ip := by
        by_cases hx : isLinkLocal x = true
        · simpa [hx] using h1
        · simp [hx] at h1
      subst this
      exact (hF x).1 h2
    · intro hf
      exact ⟨ip, by simp [(isLinkLocal_iff ip).2 hf.1], (hF ip).2 hf⟩
  have hb : b.build (some ifs) = (findInterfaceLinkLocalAddr (some ifs) b.interface).bind fun address =>
      .ok { interface := b.interface, address
            port := b.port.getD protocolPort, peer := b.peer.getD protocolAddr
            peerPort := b.peerPort.getD protocolPort, retryInterval := b.retryInterval.getD defaultRetryInterval
            nRetries := b.nRetries } := by
    rw [Builder.build, Builder.chooseAddress, h]; rfl
  rw [hb, findInterfaceLinkLocalAddr]
  cases hs : ifs.findSome? (firstValidAddress b.interface) with
  | none =>
    refine ⟨nofun, fun ip hip => ?_, fun _ => rfl⟩
    rw [(key ip).2 hip] at hs; cases hs
  | some ip =>
    refine ⟨fun c hc => ?_, fun ip' hip' => ⟨_, rfl, ?_⟩, fun hn => ?_⟩
    · cases hc; exact (key ip).1 hs
    · have := (key ip').2 hip'
      rw [hs] at this
      exact Option.some.inj this
    · obtain ⟨hl, before, after, hifs, _⟩ := (key ip).1 hs
      exact absurd ⟨ip, hl, by rw [Assigned, hifs]; simp⟩ hn

/-- C79: a given address is accepted exactly if it is the first IPv6 address of the interface; otherwise building fails
and names the interface. -/
theorem C79_given_partial (ifs : List InterfaceAddress) (b : Builder) (a : Ipv6) (h : b.address = some a) :
    (First ifs b.interface (fun _ => True) a → ∃ c, b.build (some ifs) = .ok c ∧ c.address = a) ∧
    (¬ First ifs b.interface (fun _ => True) a → b.build (some ifs) = .error (.badInterface b.interface)) := by
  rw [← valid_iff]
  rw [Builder.build, Builder.chooseAddress, h]
  constructor
  · intro hv
    refine ⟨_, by simp only [hv, if_true]; rfl, rfl⟩
  · intro hv
    simp only [hv]
    rfl

/-- C79: an accepted address is assigned to the interface. -/
theorem C79_sound_partial (ifs : List InterfaceAddress) (b : Builder) (c : Cfg) (h : b.build (some ifs) = .ok c) :
    Assigned ifs c.interface c.address ∧ ∀ a, b.address = some a → c.address = a := by
  have hi : c.interface = b.interface := by
    rw [Builder.build] at h
    cases hx : b.chooseAddress (some ifs) with
    | error e => rw [hx] at h; cases h
    | ok x => rw [hx] at h; cases h; rfl
  rw [hi]
  cases ha : b.address with
  | none =>
    obtain ⟨_, before, after, he, _⟩ := (C79_link_local ifs b ha).1 c h
    exact ⟨by rw [Assigned, he]; simp, nofun⟩
  | some a =>
    by_cases hv : First ifs b.interface (fun _ => True) a
    · obtain ⟨c', hc, hca⟩ := (C79_given_partial ifs b a ha).1 hv
      rw [h] at hc
      cases hc
      obtain ⟨_, before, after, he, _⟩ := hv
      refine ⟨by rw [Assigned, hca, he]; simp, fun a' h' => by cases h'; exact hca⟩
    · rw [(C79_given_partial ifs b a ha).2 hv] at h; cases h

/-- C79: if the addresses cannot be listed, building fails and names the interface. -/
theorem C79_no_list (b : Builder) : b.build none = .error (.badInterface b.interface) := by
  rw [Builder.build, Builder.chooseAddress]
  cases b.address <;> rfl

/-- An interface with two IPv6 addresses, and an IPv4 address before them. -/
def twoAddresses : List InterfaceAddress :=
  [⟨chars!"net0", some .other⟩, ⟨chars!"net0", some (.in6 (ipOf 0xfe80 0 0 0 0 0 0 1))⟩,
   ⟨chars!"net0", some (.in6 (ipOf 0xfd00 0 0 0 0 0 0 2))⟩]

/-- C79 is false: the second IPv6 address of an interface is rejected. -/
theorem C79_counterexample :
    Assigned twoAddresses chars!"net0" (ipOf 0xfd00 0 0 0 0 0 0 2) ∧
    ({ interface := chars!"net0", address := some (ipOf 0xfd00 0 0 0 0 0 0 2) } : Builder).build (some twoAddresses) =
      .error (.badInterface chars!"net0") ∧
    ∃ c, ({ interface := chars!"net0" } : Builder).build (some twoAddresses) = .ok c ∧
      c.address = ipOf 0xfe80 0 0 0 0 0 0 1 := by
  refine ⟨by simp [Assigned, twoAddresses], ?_, ?_⟩
  · refine (C79_given_partial twoAddresses _ _ rfl).2 fun h => ?_
    rw [← valid_iff] at h
    exact absurd h (by decide +kernel)
  · refine (C79_link_local twoAddresses _ rfl).2.1 _ ⟨?_, [⟨chars!"net0", some .other⟩],
      [⟨chars!"net0", some (.in6 (ipOf 0xfd00 0 0 0 0 0 0 2))⟩], rfl, ?_⟩
    · exact (isLinkLocal_iff _).1 (by decide +kernel)
    · intro other _ h
      simp [Assigned] at h

/-- C79 as stated is false. -/
theorem C79_false : ¬ ∀ (ifs : List InterfaceAddress) (b : Builder) (a : Ipv6), b.address = some a →
    Assigned ifs b.interface a → ∃ c, b.build (some ifs) = .ok c := by
  intro h
  obtain ⟨h1, h2, _⟩ := C79_counterexample
  obtain ⟨c, hc⟩ := h _ { interface := chars!"net0", address := some (ipOf 0xfd00 0 0 0 0 0 0 2) } _ rfl h1
  rw [h2] at hc
  cases hc

/-! ## C80: settings -/

/-- The last value given for a setting. -/
def lastGiven {α : Type} (f : Setting → Option α) (l : List Setting) : Option α := l.reverse.findSome? f

theorem lastGiven_foldl {α : Type} (f : Setting → Option α) (get : Builder → Option α)
    (hset : ∀ b s, get (b.set s) = (f s).or (get b)) : ∀ (l : List Setting) (b : Builder),
    get (l.foldl Builder.set b) = (lastGiven f l).or (get b)
  | [], _ => rfl
  | s :: l, b => by
    rw [List.foldl_cons, lastGiven_foldl f get hset l, hset, lastGiven, lastGiven, List.reverse_cons,
      List.findSome?_append, Option.or_assoc]
    cases hs : f s <;> simp [List.findSome?, hs]

/-- C80: after any calls of setters in any order, each setting has the value given last for it, and its default if none
was given: port 11112 on both sides, the multicast group, one second, no limit. -/
theorem C80_settings (ifs : Option (List InterfaceAddress)) (name : List Char) (l : List Setting) (c : Cfg)
    (h : (l.foldl Builder.set { interface := name }).build ifs = .ok c) :
    c.interface = name ∧
    (∀ a, lastGiven (fun | .address a => some a | _ => none) l = some a → c.address = a) ∧
    c.port = (lastGiven (fun | .port p => some p | _ => none) l).getD 11112 ∧
    c.peer = (lastGiven (fun | .peer a => some a | _ => none) l).getD (ipOf 0xff02 0 0 0 0 0 0x1de 2) ∧
    c.peerPort = (lastGiven (fun | .peerPort p => some p | _ => none) l).getD 11112 ∧
    c.retryInterval = (lastGiven (fun | .retryInterval d => some d | _ => none) l).getD 1000000000 ∧
    c.nRetries = lastGiven (fun | .nRetries n => some n | _ => none) l := by
  have hif : ∀ (l : List Setting) (b : Builder), (l.foldl Builder.set b).interface = b.interface := by
    intro l
    induction l with
    | nil => intro b; rfl
    | cons s l ih => intro b; rw [List.foldl_cons, ih]; cases s <;> rfl
  have e1 := lastGiven_foldl (fun | .address a => some a | _ => none) Builder.address
    (fun b s => by cases s <;> rfl) l { interface := name }
  have e2 := lastGiven_foldl (fun | .port p => some p | _ => none) Builder.port
    (fun b s => by cases s <;> rfl) l { interface := name }
  have e3 := lastGiven_foldl (fun | .peer a => some a | _ => none) Builder.peer
    (fun b s => by cases s <;> rfl) l { interface := name }
  have e4 := lastGiven_foldl (fun | .peerPort p => some p | _ => none) Builder.peerPort
    (fun b s => by cases s <;> rfl) l { interface := name }
  have e5 := lastGiven_foldl (fun | .retryInterval d => some d | _ => none) Builder.retryInterval
    (fun b s => by cases s <;> rfl) l { interface := name }
  have e6 := lastGiven_foldl (fun | .nRetries n => some n | _ => none) Builder.nRetries
    (fun b s => by cases s <;> rfl) l { interface := name }
  have e0 : (l.foldl Builder.set { interface := name }).interface = name := hif l { interface := name }
  simp only [Option.or_none] at e1 e2 e3 e4 e5 e6
  generalize l.foldl Builder.set { interface := name } = b at h e0 e1 e2 e3 e4 e5 e6
  rw [← e1, ← e2, ← e3, ← e4, ← e5, ← e6, ← e0]
  rw [Builder.build] at h
  cases hx : b.chooseAddress ifs with
  | error e => rw [hx] at h; cases h
  | ok x =>
    rw [hx] at h
    cases h
    refine ⟨rfl, fun a ha => ?_, rfl, rfl, rfl, rfl, rfl⟩
    rw [Builder.chooseAddress, ha] at hx
    simp only at hx
    split at hx <;> cases hx
    rfl

example : ∃ c, ([Setting.port 5, .nRetries 3, .port 7].foldl Builder.set { interface := chars!"net0" }).build
    (some twoAddresses) = .ok c ∧ c.port = 7 ∧ c.nRetries = some 3 ∧ c.peerPort = 11112 ∧
    c.address = ipOf 0xfe80 0 0 0 0 0 0 1 := by
  obtain ⟨c, hc, ha⟩ := (C79_link_local twoAddresses
    ([Setting.port 5, .nRetries 3, .port 7].foldl Builder.set { interface := chars!"net0" }) rfl).2.1
    (ipOf 0xfe80 0 0 0 0 0 0 1) ⟨(isLinkLocal_iff _).1 (by decide +kernel), [⟨chars!"net0", some .other⟩],
      [⟨chars!"net0", some (.in6 (ipOf 0xfd00 0 0 0 0 0 0 2))⟩], rfl, fun other _ h => by simp [Assigned] at h⟩
  have := C80_settings _ _ _ c hc
  exact ⟨c, hc, this.2.2.1, this.2.2.2.2.2.2, this.2.2.2.2.1, ha⟩

/-! ## C81: starting -/

/-- C81: with a retry interval above zero, starting a controller never aborts. It succeeds exactly if the interface
exists and the system lets it bind and join; then it listens on the configured address and port and on the group of the
protocol, and sends to the configured peer, all on that interface, with the configured retries. -/
theorem C81_start_partial (os : Os) (c : Cfg) (h : c.retryInterval ≠ 0) :
    (os.index c.interface = none → start os c = .err (.badInterface c.interface)) ∧
    ∀ i, os.index c.interface = some i →
      (os.bind ⟨c.address, c.port, i⟩ = true ∧ os.join (ipOf 0xff02 0 0 0 0 0 0x1de 2) i = true →
        start os c = .ok ⟨⟨c.address, c.port, i⟩, (ipOf 0xff02 0 0 0 0 0 0x1de 2, i), ⟨c.peer, c.peerPort, i⟩,
          c.nRetries, c.retryInterval⟩) ∧
      (¬ (os.bind ⟨c.address, c.port, i⟩ = true ∧ os.join (ipOf 0xff02 0 0 0 0 0 0x1de 2) i = true) →
        start os c = .err .io) := by
  refine ⟨fun hi => by rw [start, hi], fun i hi => ⟨fun hb => ?_, fun hb => ?_⟩⟩
  · rw [start, hi]
    simp only [hb.1, if_true]
    rw [if_pos (show os.join protocolAddr i = true from hb.2), if_neg h]
    rfl
  · rw [start, hi]
    simp only
    by_cases h1 : os.bind ⟨c.address, c.port, i⟩ = true
    · rw [if_pos h1, if_neg (show ¬ os.join protocolAddr i = true from fun h2 => hb ⟨h1, h2⟩)]
    · rw [if_neg h1]

/-- C81: the command line tool never aborts in starting its controller. -/
theorem C81_tool (os : Os) (a : ToolArgs) : start os (toolConfig a) ≠ .panic := by
  have hr : (toolConfig a).retryInterval ≠ 0 := by
    have := a.bounds
    show a.retryInterval * 1000000 ≠ 0
    omega
  have := C81_start_partial os (toolConfig a) hr
  cases hi : os.index (toolConfig a).interface with
  | none => rw [this.1 hi]; nofun
  | some i =>
    by_cases hb : os.bind ⟨(toolConfig a).address, (toolConfig a).port, i⟩ = true ∧
        os.join (ipOf 0xff02 0 0 0 0 0 0x1de 2) i = true
    · rw [(this.2 i hi).1 hb]; nofun
    · rw [(this.2 i hi).2 hb]; nofun

/-- C81 is false: the builder accepts a retry interval of zero, with which starting aborts. -/
theorem C81_counterexample :
    ∃ c, ({ interface := chars!"net0", retryInterval := some 0 } : Builder).build (some twoAddresses) = .ok c ∧
      start ⟨fun _ => some 1, fun _ => true, fun _ _ => true⟩ c = .panic := by
  obtain ⟨c, hc, _⟩ := (C79_link_local twoAddresses { interface := chars!"net0", retryInterval := some 0 } rfl).2.1
    (ipOf 0xfe80 0 0 0 0 0 0 1) ⟨(isLinkLocal_iff _).1 (by decide +kernel), [⟨chars!"net0", some .other⟩],
      [⟨chars!"net0", some (.in6 (ipOf 0xfd00 0 0 0 0 0 0 2))⟩], rfl, fun other _ h => by simp [Assigned] at h⟩
  refine ⟨c, hc, ?_⟩
  have := C80_settings (some twoAddresses) chars!"net0" [.retryInterval 0] c hc
  have h0 : c.retryInterval = 0 := this.2.2.2.2.2.1
  simp [start, h0]

/-- C81 as stated is false. -/
theorem C81_false : ¬ ∀ (os : Os) (ifs : Option (List InterfaceAddress)) (b : Builder) (c : Cfg),
    b.build ifs = .ok c → start os c ≠ .panic := by
  intro h
  obtain ⟨c, hc, hp⟩ := C81_counterexample
  exact h _ _ _ c hc hp

example : ∃ os c, c.retryInterval = defaultRetryInterval ∧ start os c =
    .ok ⟨⟨1, 2, 3⟩, (protocolAddr, 3), ⟨4, 5, 3⟩, some 6, defaultRetryInterval⟩ :=
  ⟨⟨fun _ => some 3, fun _ => true, fun _ _ => true⟩, ⟨1, 2, [], 4, 5, defaultRetryInterval, some 6⟩, by decide +kernel⟩

end Xcvr
