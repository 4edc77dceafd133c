import Verif.Props.Transport
/-!
# C63: which network interfaces a node uses
-/
namespace Uecho
open Spec

/-- The addresses a node should use: the IPv4 addresses of all interfaces that are up and are neither loopback
nor point-to-point, except the default Docker bridge 172.17.0.1/16, in the order of the interface list. -/
def Spec.usableAddresses (ifs : List NetIf) : List IpAddr :=
  ((ifs.filter (fun i => i.isUp && !i.isLoopback && !i.isPointToPoint)).flatMap (fun i =>
    i.ips.filter (fun ip => match ip with
      | (.v4 a, len) => !(a == 172 * 2 ^ 24 + 17 * 2 ^ 16 + 1 && len == 16)
      | (.v6 _, _) => false))).map Prod.fst

/-- The same with IPv6 addresses. -/
def Spec.usableV6Addresses (ifs : List NetIf) : List IpAddr :=
  ((ifs.filter (fun i => i.isUp && !i.isLoopback && !i.isPointToPoint)).flatMap (fun i =>
    i.ips.filter (fun ip => match ip with
      | (.v4 _, _) => false
      | (.v6 _, _) => true))).map Prod.fst

theorem getInterfaces_eq (enable sel : IpAddr × Nat → Bool) (ifs : List NetIf)
    (h : ∀ ip, sel ip = (!isIgnoreInterface ip && enable ip)) :
    getInterfaces enable ifs =
      ((ifs.filter (fun i => i.isUp && !i.isLoopback && !i.isPointToPoint)).flatMap
        (fun i => i.ips.filter sel)).map Prod.fst := by
  have inner : ∀ (ips : List (IpAddr × Nat)) (acc : List IpAddr),
      ips.foldl (fun acc ip => if isIgnoreInterface ip then acc
        else if !enable ip then acc else acc ++ [ip.1]) acc = acc ++ (ips.filter sel).map Prod.fst := by
    intro ips
    induction ips with
    | nil => simp
    | cons ip ips ih =>
      intro acc
      rw [List.foldl_cons, ih, List.filter_cons, h ip]
      cases isIgnoreInterface ip <;> cases enable ip <;> simp
  have outer : ∀ (ifs : List NetIf) (acc : List IpAddr),
      ifs.foldl (fun acc i =>
        if !i.isUp then acc
        else if i.isLoopback || i.isPointToPoint then acc
        else if i.ips.isEmpty then acc
        else i.ips.foldl (fun acc ip =>
          if isIgnoreInterface ip then acc
          else if !enable ip then acc
          else acc ++ [ip.1]) acc) acc =
      acc ++ ((ifs.filter (fun i => i.isUp && !i.isLoopback && !i.isPointToPoint)).flatMap
        (fun i => i.ips.filter sel)).map Prod.fst := by
    intro ifs
    induction ifs with
    | nil => simp
    | cons i ifs ih =>
      intro acc
      rw [List.foldl_cons, ih, inner, List.filter_cons]
      cases hu : i.isUp <;> cases hl : i.isLoopback <;> cases hp : i.isPointToPoint <;> simp
      cases hi : i.ips <;> simp
  have := outer ifs []
  rw [List.nil_append] at this
  exact this

/-- C63: `get_all_interfaces` and `get_v4_interfaces` return exactly the usable IPv4 addresses, in order and
each as often as it occurs; `get_v6_interfaces` the IPv6 ones. -/
theorem C63_interfaces (ifs : List NetIf) :
    getAllInterfaces ifs = usableAddresses ifs ∧ getV4Interfaces ifs = usableAddresses ifs ∧
    getV6Interfaces ifs = usableV6Addresses ifs := by
  have h4 : getInterfaces isV4Interface ifs = usableAddresses ifs := by
    apply getInterfaces_eq
    rintro ⟨a | a, len⟩
    · have hb : isIgnoreInterface (.v4 a, len) = (a == 172 * 2 ^ 24 + 17 * 2 ^ 16 + 1 && len == 16) := by
        rw [Bool.eq_iff_iff]
        simp only [isIgnoreInterface, beq_iff_eq, Prod.mk.injEq, IpAddr.v4.injEq, Bool.and_eq_true]
        rfl
      simp only [hb, isV4Interface, Bool.and_true]
    · simp [isV4Interface]
  have h6 : getInterfaces isV6Interface ifs = usableV6Addresses ifs := by
    apply getInterfaces_eq
    rintro ⟨a | a, len⟩
    · simp [isV6Interface]
    · simp [isIgnoreInterface, isV6Interface]
  exact ⟨h4, h4, h6⟩

/-- C63, consequence for `start`: whatever the operating system answers for each usable address (the outcome
lists cover exactly the addresses returned by `get_all_interfaces`), starting a stopped transport does not
panic, and on success it listens exactly on those usable addresses whose sockets could be set up, in order. -/
theorem C63_start (ifs : List NetIf) (menv uenv : List IfOutcome)
    (hm : menv.map (·.addr) = getAllInterfaces ifs) (hu : uenv.map (·.addr) = getAllInterfaces ifs) :
    ∃ r m', Manager.new.start menv uenv = .ok (r, m') ∧
      (r = true → m'.ucast.map (·.ifaddr) = (serversFor CanUnicast uenv).map (·.ifaddr) ∧
        m'.mcast.map (·.ifaddr) = (serversFor CanMulticast menv).map (·.ifaddr) ∧
        ∀ s ∈ m'.ucast ++ m'.mcast, s.ifaddr ∈ usableAddresses ifs) ∧
      (r = false → m' = ⟨[], []⟩) := by
  have h4 : ∀ e ∈ menv, IsV4 e.addr := by
    intro e he
    apply C43_interfaces_are_v4 ifs
    rw [← hm]
    exact List.mem_map_of_mem he
  obtain ⟨r, m', h, h1, h2, h3, h5⟩ := C43_start menv uenv h4
  refine ⟨r, m', h, ?_, h5⟩
  intro hr
  rw [h3 hr]
  refine ⟨rfl, rfl, ?_⟩
  rw [← (C63_interfaces ifs).1]
  intro s hs
  have key : ∀ (P : IfOutcome → Prop) (env : List IfOutcome), env.map (·.addr) = getAllInterfaces ifs →
      s ∈ serversFor P env → s.ifaddr ∈ getAllInterfaces ifs := by
    intro P env he hs
    unfold serversFor at hs
    obtain ⟨e, hm, rfl⟩ := List.mem_map.mp hs
    rw [← he]
    exact List.mem_map_of_mem (List.mem_filter.mp hm).1
  rcases List.mem_append.mp hs with hs | hs
  · exact key _ _ hu hs
  · exact key _ _ hm hs

/-- C63: a running transport says it has exactly the interfaces for which a multicast or a unicast socket could be
set up; one that could not be started, or has been stopped, has none. -/
theorem C63_has_interface (menv uenv : List IfOutcome) (h4 : ∀ e ∈ menv, IsV4 e.addr) (a : IpAddr) :
    ∃ r m', Manager.new.start menv uenv = .ok (r, m') ∧
      (m'.hasInterface a = true ↔ r = true ∧
        ((∃ e ∈ menv, CanMulticast e ∧ e.addr = a) ∨ ∃ e ∈ uenv, CanUnicast e ∧ e.addr = a)) ∧
      ∀ m'', m'.stop = .ok (true, m'') → m''.hasInterface a = false := by
  obtain ⟨r, m', h, h1, h2, h3, h5⟩ := C43_start menv uenv h4
  refine ⟨r, m', h, ?_, ?_⟩
  · have key : ∀ (P : IfOutcome → Prop) (env : List IfOutcome),
        (serversFor P env).any (fun s => s.ifaddr == a) = true ↔ ∃ e ∈ env, P e ∧ e.addr = a := by
      intro P env
      simp only [serversFor, List.any_eq_true, List.mem_map, List.mem_filter, decide_eq_true_eq, beq_iff_eq]
      constructor
      · rintro ⟨s, ⟨e, ⟨he, hp⟩, rfl⟩, ha⟩; exact ⟨e, he, hp, ha⟩
      · rintro ⟨e, he, hp, ha⟩; exact ⟨_, ⟨e, ⟨he, hp⟩, rfl⟩, ha⟩
    cases r with
    | false => rw [h5 rfl]; simp [Manager.hasInterface]
    | true =>
      rw [h3 rfl, ← key, ← key]
      simp only [Manager.hasInterface]
      split <;> simp_all
  · intro m'' hs
    by_cases ht : ThreadsOk m'
    · rw [(C43_stop m').1 ht] at hs
      simp only [Res.ok.injEq, Prod.mk.injEq, true_and] at hs
      subst hs; rfl
    · rw [(C43_stop m').2 ht] at hs; cases hs

/-- Two interfaces, one of which cannot join the group: both are there. -/
example : ∃ r, Manager.new.start
      [⟨.v4 1, fun _ => true, true⟩, ⟨.v4 2, fun k => k == 2, false⟩]
      [⟨.v4 1, fun _ => false, true⟩, ⟨.v4 2, fun k => k == 2, false⟩] = .ok r ∧
    r.2.hasInterface (.v4 1) = true ∧ r.2.hasInterface (.v4 2) = true ∧ r.2.hasInterface (.v4 3) = false := by
  refine ⟨_, rfl, ?_, ?_, ?_⟩ <;> decide

/-- A host with a loopback, a Docker bridge, a point-to-point link, a dual-stack LAN interface and an unused
one: only the LAN address is used. -/
example : getAllInterfaces
      [⟨true, true, false, [(.v4 0x7F000001, 8)]⟩, ⟨true, false, false, [(.v4 0xAC110001, 16)]⟩,
       ⟨true, false, true, [(.v4 0x0A000001, 32)]⟩, ⟨true, false, false, [(.v6 1, 64), (.v4 0xC0A80102, 24)]⟩,
       ⟨false, false, false, [(.v4 0xC0A80203, 24)]⟩] = [.v4 0xC0A80102] := by decide

end Uecho
