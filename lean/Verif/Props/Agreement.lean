import Verif.Props.LineCount
/-!
# C121: what is displayed for a network and what is listed for it
-/
namespace Ripcalc
open AddrSpec LawfulIpAddr

/-! ## Vocabulary -/

/-- A line of the display: a label, a text and something else, without a line end inside. -/
def Field (label text : Str) (ms : List Mark) : Prop :=
  ∃ w third, ms = [.piece .white (padRight 11 label), .piece .blue (padRight w text)] ++ third ++ plainly ['\n'] ∧ .char '\n' ∉ third

/-- A line of the display with a remark. -/
def Remark (text : Str) (ms : List Mark) : Prop := ms = [.piece .white text] ++ plainly ['\n']

/-- The lines about the network that come after those about the address, for a network whose addresses have these texts: the first is
the network; if there are at least four, the second and the last but one are the hosts; if there are at least two, the last is the
broadcast address; and the number of hosts is the number of addresses less two. -/
def FieldsFor (ls : List Str) (ms : List Mark) : Prop :=
  ∃ net hosts bc cnt base suffix, ms = net ++ hosts ++ bc ++ cnt ∧
    ls[0]? = some base ∧ (suffix = [] ∨ ∃ p num, suffix = '/' :: num ∧ CanonicalNumeral 10 num p) ∧ Field "Network:".toList (base ++ suffix) net ∧
    ((ls.length < 4 ∧ Remark "no hosts".toList hosts) ∨
      ∃ f l u v, 4 ≤ ls.length ∧ ls[1]? = some f ∧ ls[ls.length - 2]? = some l ∧ hosts = u ++ v ∧
        Field "HostMin:".toList f u ∧ Field "HostMax:".toList l v) ∧
    ((ls.length < 2 ∧ Remark "no broadcast".toList bc) ∨ ∃ x, 2 ≤ ls.length ∧ ls[ls.length - 1]? = some x ∧ Field "Broadcast:".toList x bc) ∧
    ((ls.length < 4 ∧ cnt = [.piece .white "no hosts/net".toList]) ∨
      ∃ num, 4 ≤ ls.length ∧ CanonicalNumeral 10 num (ls.length - 2) ∧ Field "Hosts/Net:".toList num cnt)

/-- Four lines about an address: the address, the mask, its complement and an arrow. -/
def AddressFields (ms : List Mark) : Prop :=
  ∃ a m w ta tm tw, ms = a ++ m ++ w ++ ([.piece .white "=>".toList] ++ plainly ['\n']) ∧
    Field "Address:".toList ta a ∧ Field "Netmask:".toList tm m ∧ Field "Wildcard:".toList tw w

section generic
variable {A : Type} [IpAddr A] [AddrSpec A] [LawfulIpAddr A] {F : Family A}

omit [IpAddr A] [LawfulIpAddr A] in
theorem sorted_get {xs : List A} (h : xs.Pairwise (fun a b => val a < val b)) {i j : Nat} {a b : A} (hi : xs[i]? = some a)
    (hj : xs[j]? = some b) : val a < val b ↔ i < j := by
  have lt : ∀ {i j : Nat} {a b : A}, xs[i]? = some a → xs[j]? = some b → i < j → val a < val b := by
    intro i j a b hi hj hij
    obtain ⟨h1, rfl⟩ := List.getElem?_eq_some_iff.mp hi
    obtain ⟨h2, rfl⟩ := List.getElem?_eq_some_iff.mp hj
    exact List.pairwise_iff_getElem.mp h i j h1 h2 hij
  constructor
  · intro hab
    rcases Nat.lt_trichotomy i j with h | h | h
    · exact h
    · subst h
      rw [hi] at hj
      cases hj
      omega
    · have := lt hj hi h
      omega
  · exact lt hi hj

omit [IpAddr A] [LawfulIpAddr A] in
theorem listing_get {n : Net A} {xs : List A} (hl : Listing n xs) {a : A} (ha : Member n a) : ∃ i : Nat, i < xs.length ∧ xs[i]? = some a := by
  obtain ⟨i, hi, rfl⟩ := List.getElem_of_mem ((hl.1 a).mpr ha)
  exact ⟨i, hi, List.getElem?_eq_getElem hi⟩

omit [IpAddr A] [LawfulIpAddr A] in
theorem get_member {n : Net A} {xs : List A} (hl : Listing n xs) {i : Nat} (hi : i < xs.length) : ∃ a, xs[i]? = some a ∧ Member n a :=
  ⟨xs[i], List.getElem?_eq_getElem hi, (hl.1 _).mp (List.getElem_mem hi)⟩

/-- The base address is the first in the list. -/
theorem listing_base {n : Net A} (hn : WF n) {xs : List A} (hl : Listing n xs) : xs[0]? = some n.baseAddr := by
  obtain ⟨i, hi, h⟩ := listing_get hl (base_member n)
  obtain ⟨a, h0, ha⟩ := get_member hl (i := 0) (by omega)
  have h1 := sorted_get hl.2 h0 h
  have h2 : val n.baseAddr ≤ val a := member_ge_base hn.hz ha
  have : i = 0 := by
    rcases Nat.eq_zero_or_pos i with h | h
    · exact h
    · have := h1.mpr h
      omega
  rw [this] at h
  exact h

omit [IpAddr A] [LawfulIpAddr A] in
theorem listing_last {n : Net A} {xs : List A} (hl : Listing n xs) {x : A} (hx : Member n x) (hm : ∀ a, Member n a → val a ≤ val x) :
    xs[xs.length - 1]? = some x := by
  obtain ⟨i, hi, h⟩ := listing_get hl hx
  obtain ⟨a, h0, ha⟩ := get_member hl (i := xs.length - 1) (by omega)
  have h1 := sorted_get hl.2 h h0
  have h2 := hm a ha
  have : i = xs.length - 1 := Classical.byContradiction fun hne => by
    have := h1.mpr (by omega)
    omega
  rw [this] at h
  exact h

theorem listing_second {n : Net A} (hn : WF n) {xs : List A} (hl : Listing n xs) {f : A} (hf : Member n f) (hne : f ≠ n.baseAddr)
    (hm : ∀ a, Member n a → a ≠ n.baseAddr → val f ≤ val a) : xs[1]? = some f := by
  have h0 := listing_base hn hl
  obtain ⟨i, hi, h⟩ := listing_get hl hf
  have hi0 : i ≠ 0 := fun e => by
    rw [e, h0] at h
    exact hne (Option.some.inj h).symm
  obtain ⟨a, h1, ha⟩ := get_member hl (i := 1) (by omega)
  have ha0 : a ≠ n.baseAddr := fun e => by
    have := (sorted_get hl.2 h0 h1).mpr (by decide)
    rw [e] at this
    omega
  have h2 := sorted_get hl.2 h1 h
  have h3 := hm a ha ha0
  have : i = 1 := Classical.byContradiction fun hne => by
    have := h2.mpr (by omega)
    omega
  rw [this] at h
  exact h

omit [IpAddr A] [LawfulIpAddr A] in
theorem listing_before_last {n : Net A} {xs : List A} (hl : Listing n xs) {l : A} (hf : Member n l)
    (hne : ∃ a, Member n a ∧ val l < val a) (hm : ∀ a a', Member n a → Member n a' → val a < val a' → val a ≤ val l) :
    xs[xs.length - 2]? = some l := by
  obtain ⟨a, ha, hla⟩ := hne
  obtain ⟨i, hi, h⟩ := listing_get hl hf
  obtain ⟨j, hj, h'⟩ := listing_get hl ha
  have hij := (sorted_get hl.2 h h').mp hla
  obtain ⟨b, h1, hb⟩ := get_member hl (i := xs.length - 2) (by omega)
  obtain ⟨c, h2, hc⟩ := get_member hl (i := xs.length - 1) (by omega)
  have h3 := hm b c hb hc ((sorted_get hl.2 h1 h2).mpr (by omega))
  have h4 := sorted_get hl.2 h h1
  have : i = xs.length - 2 := Classical.byContradiction fun hne => by
    have := h4.mpr (by omega)
    omega
  rw [this] at h
  exact h

omit [IpAddr A] [AddrSpec A] [LawfulIpAddr A] in
theorem line_field {label text : Str} {third : List Mark} (h : third.count (.char '\n') = 0) : Field label text (F.line label text third) :=
  ⟨F.column, third, rfl, List.count_eq_zero.mp h⟩

theorem pow_cases (k : Nat) : (k < 2 → 2 ^ k < 4) ∧ (2 ≤ k → 4 ≤ 2 ^ k) ∧ (k < 1 → 2 ^ k < 2) ∧ (1 ≤ k → 2 ≤ 2 ^ k) := by
  refine ⟨fun h => ?_, fun h => ?_, fun h => ?_, fun h => ?_⟩
  · exact Nat.pow_lt_pow_right (a := 2) (by decide) h
  · exact Nat.pow_le_pow_right (n := 2) (by decide) h
  · exact Nat.pow_lt_pow_right (a := 2) (by decide) h
  · exact Nat.pow_le_pow_right (n := 2) (by decide) h

/-- The display of a network in terms of the list of its addresses. -/
theorem block_fields (hnum : ∀ v, CanonicalNumeral 10 (F.num v) v) {n : Net A} (hn : WF n) {a : A} {t : List Mark}
    (hb : F.Block n (some a) t) {xs : List A} (hl : Listing n xs) :
    ∃ u v, t = u ++ v ∧ AddressFields u ∧ FieldsFor (xs.map F.text) v := by
  obtain ⟨b, col, hd, -, -, rfl⟩ := hb
  have hlen : xs.length = 2 ^ hostBitCount n.subnetMask := listing_length hl
  have hp := pow_cases (hostBitCount n.subnetMask)
  rw [← hlen] at hp
  have hbase := listing_base hn hl
  rw [Family.render, hd.address]
  have assoc : ∀ m N H B C : List Mark, m ++ N ++ H ++ B ++ C = m ++ (N ++ H ++ B ++ C) := fun m N H B C => by simp
  refine ⟨_, _, assoc _ _ _ _ _, ⟨_, _, _, _, _, _, List.append_assoc _ _ _, line_field (digits_ends _ _),
    line_field (bytes_ends _ _), line_field (bytes_ends _ _)⟩, _, _, _, _, F.text n.baseAddr,
      (match b.network.cidrPrefix with | some p => ['/'] ++ F.num p | none => []), rfl, ?_, ?_, ?_, ?_, ?_, ?_⟩
  · rw [List.getElem?_map, hbase]; rfl
  · cases b.network.cidrPrefix with
    | none => exact .inl rfl
    | some p => exact .inr ⟨p, F.num p, rfl, hnum p⟩
  · rw [hd.network]
    exact line_field (digits_ends _ _)
  · rw [List.length_map]
    cases hh : b.hosts with
    | none => exact .inl ⟨hp.1 (hd.no_hosts.mp hh), rfl⟩
    | some x =>
      obtain ⟨f, l⟩ := x
      have h2 : ¬ hostBitCount n.subnetMask < 2 := fun h => by rw [hd.no_hosts.mpr h] at hh; cases hh
      obtain ⟨f1, f2, f3⟩ := hd.first_host f l hh
      obtain ⟨l1, l2, l3⟩ := hd.last_host f l hh
      exact .inr ⟨F.text f, F.text l, _, _, hp.2.1 (by omega), by rw [List.getElem?_map, listing_second hn hl f1 f2 f3]; rfl,
        by rw [List.getElem?_map, listing_before_last hl l1 l2 l3]; rfl, rfl, line_field (bytes_ends _ _), line_field (bytes_ends _ _)⟩
  · rw [List.length_map]
    cases hh : b.broadcast with
    | none =>
      refine .inl ⟨Classical.byContradiction fun hlt => ?_, rfl⟩
      have hall := hd.no_broadcast.mp hh
      obtain ⟨c, h1, hc⟩ := get_member hl (i := 1) (by omega)
      have := (sorted_get hl.2 hbase h1).mpr (by decide)
      rw [hall c hc] at this
      omega
    | some x =>
      obtain ⟨b1, b2⟩ := hd.broadcast x hh
      refine .inr ⟨F.text x, Classical.byContradiction fun hlt => ?_, by rw [List.getElem?_map, listing_last hl b1 b2]; rfl, line_field (bytes_ends _ _)⟩
      have : b.broadcast = none := hd.no_broadcast.mpr fun c hc => by
        obtain ⟨i, hi, h⟩ := listing_get hl hc
        obtain rfl : i = 0 := by omega
        rw [hbase] at h
        exact (Option.some.inj h).symm
      rw [hh] at this
      cases this
  · rw [List.length_map, hd.hostCount]
    have hcast : (2 ^ hostBitCount n.subnetMask : Int) = (xs.length : Int) := by
      rw [hlen, Int.natCast_pow]
      rfl
    rw [hcast]
    by_cases h4 : 4 ≤ xs.length
    · rw [if_pos (by omega)]
      refine .inr ⟨_, h4, hnum _, ?_⟩
      rw [show ((xs.length : Int) - 2).toNat = xs.length - 2 by omega]
      refine line_field ?_
      split <;> rfl
    · rw [if_neg ?_]
      · exact .inl ⟨by omega, rfl⟩
      · intro h
        have h3 := hp.2.1
        have h5 := hp.2.2.2
        have h6 := hp.1
        by_cases hk : hostBitCount n.subnetMask < 2
        · have : hostBitCount n.subnetMask = 0 ∨ hostBitCount n.subnetMask = 1 := by omega
          rcases this with e | e <;> rw [e] at hlen <;> omega
        · exact h4 (h3 (by omega))

end generic

theorem asLines_inj : ∀ {ls ls' : List Str}, (∀ l ∈ ls, '\n' ∉ l) → (∀ l ∈ ls', '\n' ∉ l) → asLines ls = asLines ls' → ls = ls'
  | [], [], _, _, _ => rfl
  | [], l' :: ls', _, _, h => by simp [asLines] at h
  | l :: ls, [], _, _, h => by simp [asLines] at h
  | l :: ls, l' :: ls', h1, h2, h => by
    have e : ∀ (l : Str) ls, asLines (l :: ls) = l ++ '\n' :: asLines ls := fun l ls => by simp [asLines]
    rw [e, e] at h
    obtain ⟨a, b⟩ := sep_inj (h1 l (by simp)) (h2 l' (by simp)) h
    rw [a, asLines_inj (fun x hx => h1 x (List.mem_cons_of_mem _ hx)) (fun x hx => h2 x (List.mem_cons_of_mem _ hx)) b]

/-! ## C121 -/

/-- If listing the addresses of an argument writes the given lines without a complaint, then displaying it succeeds, and the network,
the hosts, the broadcast address and the number of hosts that are displayed are those of these lines. -/
theorem C121_displayed (rt rt' : Runtime) (hc : rt'.colorsEnabled = true) (prog mode prog' s : Str)
    (hm : mode = "-e".toList ∨ mode = "--enumerate".toList) (hs : s ∉ modeWords) (ls : List Str) (hn : ∀ l ∈ ls, '\n' ∉ l)
    (h : Outcome.of (doMain rt [prog, mode, s]) = .shown (plainly (asLines ls))) :
    ∃ u v, Outcome.of (doMain rt' [prog', s]) = .shown (u ++ v) ∧ AddressFields u ∧ FieldsFor ls v := by
  obtain ⟨ts, ms, h1, hp, e⟩ := (enumerate_outcome (prog := prog) (rest := [s]) rt (by simpa using hm) (by simp) _).mpr rfl
  rw [h] at e
  have e1 := congrArg Outcome.out e
  have e2 := congrArg Outcome.messages e
  change plainly (asLines ls) = plainly ts.flatten at e1
  change [] = ms at e2
  have e3 : asLines ls = ts.flatten := by
    have := congrArg textOf e1
    rwa [writing_text.plain, writing_text.plain] at this
  have key : ∀ r, r = Outcome.of (doMain rt' [prog', s]) ↔ _ := fun r => (show_outcome (prog := prog') (mode := s) (rest := []) rt' hc hs r).symm
  cases hp with
  | @cons _ t _ ts h2 hp =>
    cases hp
    rw [List.flatten_cons, List.flatten_nil, List.append_nil] at e3
    rcases h2 with ⟨a, n, xs, g1, g2, rfl⟩ | ⟨a, n, xs, g1, g2, rfl⟩ | ⟨⟨f, he⟩, rfl⟩
    · obtain rfl := asLines_inj hn (fun l hl => by obtain ⟨x, -, rfl⟩ := List.mem_map.mp hl; exact counted4.text x) e3
      have hw := counted4.wf s a n g1
      obtain ⟨t, ht, -⟩ := (displayed4 rt' hc).block n hw (some a)
      obtain ⟨u, v, rfl, hu, hv⟩ := block_fields (F := shownTexts.ipv4) num_canonical hw ht g2
      refine ⟨u, v, ((key _).mpr (.inr ⟨[u ++ v], .cons (.inl ⟨a, n, g1, ht⟩) .nil, ?_⟩)).symm, hu, hv⟩
      simp [List.intercalate]
    · obtain rfl := asLines_inj hn (fun l hl => by obtain ⟨x, -, rfl⟩ := List.mem_map.mp hl; exact counted6.text x) e3
      have hw := counted6.wf s a n g1
      obtain ⟨t, ht, -⟩ := (displayed6 rt' hc).block n hw (some a)
      obtain ⟨u, v, rfl, hu, hv⟩ := block_fields (F := shownTexts.ipv6) num_canonical hw ht g2
      refine ⟨u, v, ((key _).mpr (.inr ⟨[u ++ v], .cons (.inr ⟨a, n, g1, ht⟩) .nil, ?_⟩)).symm, hu, hv⟩
      simp [List.intercalate]
    · obtain ⟨x, hx⟩ := no_faults h1 e2.symm s (by simp)
      have := hx.symm.trans ((parseNetspec_error s f).mpr he)
      cases this

/-! ## Listing the parts -/

section generic
variable {A : Type} [IpAddr A] [AddrSpec A] [LawfulIpAddr A]

/-- Listing networks that lie one behind another and have together the addresses of a network lists, one list after the other, the
same as listing the network. -/
theorem C121_parts (pr pr' : Profile) (n : Net A) (hn : WF n) (ns : List (Net A)) (hw : ∀ o ∈ ns, WF o) (hb : ns.Pairwise Below)
    (hc : Covers ns (Member n)) :
    ∃ xss : List (List A), Pointwise (fun o xs => enumerateNet pr o = .ok xs) ns xss ∧ enumerateNet pr' n = .ok xss.flatten := by
  have key : ∀ l : List (Net A), (∀ n ∈ l, WF n) → l.Pairwise Below →
      ∃ xss : List (List A), Pointwise (fun n xs => enumerateNet pr n = .ok xs) l xss ∧
        xss.flatten.Pairwise (fun x y => val x < val y) ∧ ∀ x, x ∈ xss.flatten ↔ ∃ n ∈ l, Member n x := by
    intro l hw hb
    induction l with
    | nil => exact ⟨[], .nil, by simp, by simp⟩
    | cons n l ih =>
      obtain ⟨xss, k1, k2, k3⟩ := ih (fun m hm => hw m (by simp [hm])) (List.pairwise_cons.mp hb).2
      obtain ⟨xs, e1, e2, e3, -⟩ := C37_enumerate pr n (hw n (by simp))
      refine ⟨xs :: xss, .cons e1 k1, ?_, fun x => by simp [List.flatten_cons, List.mem_append, k3, e2]⟩
      rw [List.flatten_cons, List.pairwise_append]
      refine ⟨e3, k2, fun x hx y hy => ?_⟩
      obtain ⟨m, hm, hmy⟩ := (k3 y).mp hy
      exact (List.pairwise_cons.mp hb).1 m hm x y ((e2 x).mp hx) hmy
  obtain ⟨xss, k1, k2, k3⟩ := key ns hw hb
  obtain ⟨xs, e1, e2, e3, -⟩ := C37_enumerate pr' n hn
  refine ⟨xss, k1, ?_⟩
  rw [e1]
  congr 1
  have nd : ∀ {l : List A}, l.Pairwise (fun a b => val a < val b) → l.Nodup := fun h => h.imp fun h e => by
    rw [e] at h
    omega
  refine ((List.perm_ext_iff_of_nodup (nd e3) (nd k2)).mpr fun a => ?_).eq_of_pairwise (le := fun a b => val a < val b)
    (fun a b _ _ h h' => ?_) e3 k2
  · rw [e2, k3, hc a]
  · omega

/-- Listing the networks into which a network is divided by a longer prefix lists the network. -/
theorem C121_pieces (pr pr' pr'' : Profile) (n : Net A) (m : A) (p q : Nat) (hn : IsCidr p n) (hm : IsPrefixMask (width A) q (val m))
    (hpq : p < q) (ns : List (Net A)) (d : Ordering) (hr : resizeNetwork pr n m = .ok (ns, d)) :
    ∃ xss : List (List A), Pointwise (fun o xs => enumerateNet pr' o = .ok xs ∧ xs.length = 2 ^ (width A - q)) ns xss ∧
      enumerateNet pr'' n = .ok xss.flatten := by
  obtain ⟨ns', h1, -, h2, h3, -, h4⟩ := C48_subnets pr n m p q hn hm hpq
  rw [hr] at h1
  cases h1
  obtain ⟨xss, k1, k2⟩ := C121_parts pr' pr'' n hn.1 ns (fun o ho => (h2 o ho).1) h3 h4
  refine ⟨xss, ?_, k2⟩
  clear k2 h3 h4 hr
  induction k1 with
  | nil => exact .nil
  | @cons o xs ns xss h _ ih =>
    refine .cons ⟨h, ?_⟩ (ih fun x hx => h2 x (List.mem_cons_of_mem _ hx))
    have ho := h2 o (by simp)
    obtain ⟨xs', e1, -, -, e2⟩ := C37_enumerate pr' o ho.1
    rw [h] at e1
    cases e1
    rw [e2, addressCount_eq, (isCidr_netBits ho).2.1]

end generic

theorem C121_parts_families : (type_of% (@C121_parts V4 _ _ _)) ∧ (type_of% (@C121_parts V6 _ _ _)) :=
  ⟨@C121_parts V4 _ _ _, @C121_parts V6 _ _ _⟩

theorem C121_pieces_families : (type_of% (@C121_pieces V4 _ _ _)) ∧ (type_of% (@C121_pieces V6 _ _ _)) :=
  ⟨@C121_pieces V4 _ _ _, @C121_pieces V6 _ _ _⟩

/-! ## Non-vacuity -/

def listedArgs : List Str := ["ripcalc".toList, "-e".toList, "192.0.2.5/30".toList]

/-- The four addresses of 192.0.2.4/30: what is displayed names the first, the second, the third and the fourth. -/
example (prog : Str) : ∃ u v, Outcome.of (doMain (.reference .checked true) [prog, "192.0.2.5/30".toList]) = .shown (u ++ v) ∧ AddressFields u ∧
    FieldsFor ["192.0.2.4".toList, "192.0.2.5".toList, "192.0.2.6".toList, "192.0.2.7".toList] v := by
  refine C121_displayed (evalRuntime .checked true) (.reference .checked true) rfl "ripcalc".toList "-e".toList prog _ (.inl rfl) (by decide) _ (by decide) ?_
  have h : doMain (evalRuntime .checked true) listedArgs = _ := ended_run _ listedArgs (by decide +kernel)
  exact (congrArg Outcome.of h).trans (by decide +kernel)

end Ripcalc
