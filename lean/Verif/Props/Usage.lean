import Verif.Props.Complaints
import Verif.Props.Messages
import Verif.Conformance.Eval
/-!
# C104: what the usage text says, and what the program does

The usage text makes three statements: how many arguments a mode takes, how a subnet can be written, and that the two families cannot
be mixed.  The full statement of the property is that all three are true.  None is true without exceptions; what holds instead is stated
and proved for every run.
-/
namespace Ripcalc

/-- How many arguments a synopsis names: they are separated by spaces. -/
def namedArguments (syn : Str) : Nat := syn.count ' ' + 1

/-- How many arguments a synopsis allows: as many as it names, or more if it ends in an ellipsis. -/
def SynopsisAllows (syn : Str) (k : Nat) : Prop :=
  if "...".toList <:+ syn then namedArguments syn ≤ k else k = namedArguments syn

/-- `show_` is the synopsis without a mode, `modes` the words for each mode with its synopsis, `note` the last line of the usage text. -/
def UsageText (text show_ : Str) (modes : List (Str × Str × Str)) (note : Str) : Prop :=
  text = (indented "Usage: ".toList
        (("ripcalc ".toList ++ show_) :: modes.map (fun m : Str × Str × Str => "ripcalc ".toList ++ m.1 ++ ['|'] ++ m.2.1 ++ [' '] ++ m.2.2)) ++ [[]] ++
      indented "SUBNET is one of: ".toList (["SUBNETMASK", "CIDRPREFIX", "-WILDCARD"].map String.toList) ++ [[], note]).flatMap (· ++ ['\n']) ∧
    ('\n' ∉ show_ ∧ '\n' ∉ note ∧ ∀ m ∈ modes, '\n' ∉ m.2.2) ∧
    modes.map (fun m => (m.1, m.2.1)) = [("-m", "--minimize"), ("-d", "--derange"), ("-s", "--split"), ("-r", "--resize"),
      ("-e", "--enumerate")].map (fun w => (w.1.toList, w.2.toList))

/-- The words that select something else than showing networks. -/
def otherModes : List Str := ["-m", "--minimize", "-d", "--derange", "-s", "--split", "-r", "--resize", "-e", "--enumerate", "--color-test",
  "--help"].map String.toList

/-- In which runs the usage text is written, besides `--help`. -/
theorem usage_written (rt : Runtime) (prog : Str) :
    (∀ args, (∀ w ∈ args.head?, w ∉ otherModes) → (.usage ∈ messages (doMain rt (prog :: args)).out ↔ args = [])) ∧
    (∀ w rest, (w = "-m".toList ∨ w = "--minimize".toList) → (.usage ∈ messages (doMain rt (prog :: w :: rest)).out ↔ rest.length < 1)) ∧
    (∀ w rest, (w = "-d".toList ∨ w = "--derange".toList) → (.usage ∈ messages (doMain rt (prog :: w :: rest)).out ↔ rest.length ≠ 2)) ∧
    (∀ w rest, (w = "-s".toList ∨ w = "--split".toList) → (.usage ∈ messages (doMain rt (prog :: w :: rest)).out ↔ rest.length < 2)) ∧
    (∀ w rest, (w = "-r".toList ∨ w = "--resize".toList) → (.usage ∈ messages (doMain rt (prog :: w :: rest)).out ↔ rest.length ≠ 2)) ∧
    (∀ w rest, (w = "-e".toList ∨ w = "--enumerate".toList) → (.usage ∈ messages (doMain rt (prog :: w :: rest)).out ↔ rest.length < 1)) := by
  refine ⟨fun args hw => ?_, fun w rest hw => ?_, fun w rest hw => ?_, fun w rest hw => ?_, fun w rest hw => ?_, fun w rest hw => ?_⟩
  · cases args with
    | nil => exact ⟨fun _ => rfl, fun _ => List.mem_singleton.mpr rfl⟩
    | cons w rest =>
      rw [C80_show rt prog w rest (hw w rfl)]
      constructor
      · rintro ⟨_, _, _, _, -, -, -, h⟩; cases h
      · intro h; cases h
  · rw [C80_minimize rt prog w rest hw]
    constructor
    · rintro (⟨rfl, -⟩ | ⟨_, _, _, -, ⟨_, -, -, h⟩ | ⟨-, -, h⟩⟩)
      · exact Nat.zero_lt_one
      · cases h
      · cases h
    · intro h
      exact .inl ⟨List.length_eq_zero_iff.mp (by omega), rfl⟩
  · rw [C80_derange rt prog w rest hw]
    constructor
    · rintro (⟨h, -⟩ | ⟨_, _, -, ⟨_, -, h⟩ | ⟨_, -, -, h⟩ | ⟨-, h⟩⟩)
      · exact h
      all_goals cases h
    · intro h
      exact .inl ⟨h, rfl⟩
  · rw [C80_split rt prog w rest hw]
    constructor
    · rintro (⟨h, -⟩ | ⟨_, _, -, -, ⟨_, _, _, -, -, ⟨-, h⟩ | ⟨_, -, -, h⟩⟩ | ⟨_, -, -, h⟩⟩)
      · exact h
      all_goals cases h
    · intro h
      exact .inl ⟨h, rfl⟩
  · rw [C80_resize rt prog w rest hw]
    constructor
    · rintro (⟨h, -⟩ | ⟨_, _, -, ⟨_, -, h⟩ | ⟨_, -, -, h⟩ | ⟨_, -, -, -, h⟩ | ⟨_, -, -, -, h⟩ | ⟨_, -, -, -, h⟩ | ⟨_, -, -, -, -, h⟩⟩)
      · exact h
      all_goals cases h
    · intro h
      exact .inl ⟨h, rfl⟩
  · obtain ⟨h1, h2⟩ := C80_enumerate rt prog w rest hw
    by_cases hr : rest = []
    · rw [h1 hr, hr]
      exact ⟨fun _ => Nat.zero_lt_one, fun _ => List.mem_singleton.mpr rfl⟩
    · have key : ∀ ss ms, EnumerateComplaints ss ms → ErrMsg.usage ∉ ms := by
        intro ss ms h
        induction h with
        | nil => exact List.not_mem_nil
        | good _ _ ih => exact ih
        | bad _ _ ih => exact fun h => (List.mem_cons.mp h).elim (fun h => by cases h) ih
      have := List.length_pos_iff.mpr hr
      exact ⟨fun h => absurd h (key _ _ ((h2 hr _).mp rfl)), fun h => absurd h (by omega)⟩

/-- The numbers of arguments.  The usage text comes back exactly if the number is not one that the synopsis of the mode allows, except
that derange takes two addresses and no more, and enumerate takes any number of networks.  Missing: that these two modes do as their
synopsis says, which is false (`C104_arguments_counterexample`). -/
theorem C104_arguments_partial (u : CharTable) (rt : Runtime) (prog : Str) : ∃ show_ modes note,
    UsageText ((ErrMsg.usage).text u) show_ modes note ∧
    (∀ args, (∀ w ∈ args.head?, w ∉ otherModes) →
      (.usage ∈ messages (doMain rt (prog :: args)).out ↔ ¬ SynopsisAllows show_ args.length)) ∧
    ∀ m ∈ modes, ∀ w, w = m.1 ∨ w = m.2.1 → ∀ rest : List Str,
      (m.1 ≠ "-d".toList → m.1 ≠ "-e".toList →
        (.usage ∈ messages (doMain rt (prog :: w :: rest)).out ↔ ¬ SynopsisAllows m.2.2 rest.length)) ∧
      (m.1 = "-d".toList → (.usage ∈ messages (doMain rt (prog :: w :: rest)).out ↔ rest.length ≠ 2) ∧
        (SynopsisAllows m.2.2 rest.length ↔ 2 ≤ rest.length)) ∧
      (m.1 = "-e".toList → (.usage ∈ messages (doMain rt (prog :: w :: rest)).out ↔ rest = []) ∧
        (SynopsisAllows m.2.2 rest.length ↔ rest.length = 1)) := by
  obtain ⟨h0, hm, hd, hs, hr, he⟩ := usage_written rt prog
  have dots : ∀ syn k n, namedArguments syn = n → "...".toList <:+ syn → (SynopsisAllows syn k ↔ n ≤ k) := by
    intro syn k n h h'
    rw [SynopsisAllows, if_pos h', h]
  have none : ∀ syn k n, namedArguments syn = n → ¬ "...".toList <:+ syn → (SynopsisAllows syn k ↔ k = n) := by
    intro syn k n h h'
    rw [SynopsisAllows, if_neg h', h]
  refine ⟨"IPADDRESS/SUBNET...".toList,
    [("-m", "--minimize", "IPADDRESS/SUBNET..."), ("-d", "--derange", "IPADDRESS IPADDRESS..."),
     ("-s", "--split", "IPADDRESS/CIDRPREFIX HOSTCOUNT..."), ("-r", "--resize", "IPADDRESS/SUBNET SUBNET"),
     ("-e", "--enumerate", "IPADDRESS/SUBNET")].map (fun m => (m.1.toList, m.2.1.toList, m.2.2.toList)),
    "IPv4 and IPv6 are supported, but cannot be mixed within an invocation.".toList,
    ⟨congrArg (List.flatMap (· ++ ['\n'])) (show usageLines = _ by decide +kernel), by decide +kernel, by decide +kernel⟩,
    fun args hw => ?_, fun m hmem w hw rest => ?_⟩
  · rw [h0 args hw, dots _ _ 1 (by decide +kernel) (by decide +kernel), ← List.length_eq_zero_iff]
    omega
  · simp only [List.map_cons, List.map_nil, List.mem_cons, List.not_mem_nil, or_false] at hmem
    rcases hmem with rfl | rfl | rfl | rfl | rfl
    · refine ⟨fun _ _ => ?_, fun h => absurd h (by decide +kernel), fun h => absurd h (by decide +kernel)⟩
      rw [hm w rest hw, dots _ _ 1 (by decide +kernel) (by decide +kernel)]
      omega
    · refine ⟨fun h => absurd rfl h, fun _ => ⟨hd w rest hw, dots _ _ 2 (by decide +kernel) (by decide +kernel)⟩,
        fun h => absurd h (by decide +kernel)⟩
    · refine ⟨fun _ _ => ?_, fun h => absurd h (by decide +kernel), fun h => absurd h (by decide +kernel)⟩
      rw [hs w rest hw, dots _ _ 2 (by decide +kernel) (by decide +kernel)]
      omega
    · refine ⟨fun _ _ => ?_, fun h => absurd h (by decide +kernel), fun h => absurd h (by decide +kernel)⟩
      rw [hr w rest hw, none _ _ 2 (by decide +kernel) (by decide +kernel)]
    · refine ⟨fun _ h => absurd rfl h, fun h => absurd h (by decide +kernel), fun _ => ⟨?_, none _ _ 1 (by decide +kernel) (by decide +kernel)⟩⟩
      rw [he w rest hw, ← List.length_eq_zero_iff]
      omega

/-- The enumerate mode with networks, as many as there may be and of whichever family, ends with status 0. -/
theorem enumerate_ends (rt : Runtime) (prog mode : Str) (rest : List Str) (hm : mode = "-e".toList ∨ mode = "--enumerate".toList)
    (hne : rest ≠ []) (h : ∀ s ∈ rest, IsV4Network s ∨ IsV6Network s) : (doMain rt (prog :: mode :: rest)).res = .ok 0 := by
  rw [(C56_dispatch rt prog mode rest).2.2.2.2.1 hm]
  have := List.length_pos_iff.mpr hne
  obtain ⟨evss, code, -, e, -, h0⟩ := C38_enumerate rt (prog :: mode :: rest) (by simp only [List.length_cons]; omega)
  rw [e]
  exact congrArg Exec.ok (h0 fun s hs => (isNetwork_iff s).mpr (h s hs))

/-- Three addresses are too many for derange, although its synopsis ends in an ellipsis; two networks are not too many for enumerate,
although its synopsis does not. -/
theorem C104_arguments_counterexample (rt : Runtime) :
    doMain rt (["ripcalc", "-d", "192.0.2.0", "192.0.2.1", "192.0.2.2"].map String.toList) = ⟨[.err .usage], .ok 1⟩ ∧
    (doMain rt (["ripcalc", "-e", "192.0.2.0/31", "192.0.2.2/32"].map String.toList)).res = .ok 0 :=
  ⟨(C56_usage rt).2 _ _ _ (.inr (.inr (.inl ⟨.inl rfl, by decide⟩))),
   enumerate_ends rt _ _ _ (.inl rfl) (by simp) fun s hs => (isNetwork_iff s).mp (by
    simp only [List.map_cons, List.map_nil, List.mem_cons, List.not_mem_nil, or_false] at hs
    rcases hs with rfl | rfl
    · exact ⟨_, (by decide +kernel : parseNetspec "192.0.2.0/31".toList = .ok (.ok (.ipv4 ⟨0xc0000200#32⟩ (Net.newWithMask ⟨0xc0000200#32⟩ ⟨0xfffffffe#32⟩))))⟩
    · exact ⟨_, (by decide +kernel : parseNetspec "192.0.2.2/32".toList = .ok (.ok (.ipv4 ⟨0xc0000202#32⟩ (Net.newWithMask ⟨0xc0000202#32⟩ ⟨0xffffffff#32⟩))))⟩)⟩

/-! ## How a subnet can be written -/

/-- A subnet of IPv4 as it is written without a minus sign. -/
def V4Subnet (l : Str) : Prop := (∃ m, QuadText l ∧ V4Reading l m) ∨ ∃ p, Numeral 10 l p ∧ p ≤ 32
/-- A subnet of IPv6 as it is written without a minus sign. -/
def V6Subnet (l : Str) : Prop := (∃ m, HexColonText l ∧ ':' ∈ l ∧ V6Reading l m) ∨ ∃ p, Numeral 10 l p ∧ p ≤ 128

theorem mem_completeColons {s : Str} {c : Char} (h : c ∈ s) : c ∈ completeColons s := by
  unfold completeColons
  simp only [List.mem_append]
  exact .inl (.inr h)

theorem mem_intercalate_colon {gs : List Str} {c : Char} (h : c ∈ List.intercalate [':'] gs) : c = ':' ∨ ∃ g ∈ gs, c ∈ g := by
  induction gs with
  | nil => cases h
  | cons g gs ih =>
    cases gs with
    | nil =>
      exact .inr ⟨g, List.mem_singleton.mpr rfl, by simpa [List.intercalate] using h⟩
    | cons g' gs =>
      have e : List.intercalate [':'] (g :: g' :: gs) = g ++ ':' :: List.intercalate [':'] (g' :: gs) := by
        simp [List.intercalate, List.intersperse]
      rw [e, List.mem_append, List.mem_cons] at h
      rcases h with h | h | h
      · exact .inr ⟨g, List.mem_cons_self, h⟩
      · exact .inl h
      · rcases ih h with h | ⟨x, hx, h⟩
        · exact .inl h
        · exact .inr ⟨x, List.mem_cons_of_mem _ hx, h⟩

section
variable {A : Type} [IpAddr A] [AddrSpec A] [LawfulIpAddr A]
open AddrSpec

theorem exists_prefixMask {p : Nat} (hp : p ≤ width A) : ∃ m : A, IsPrefixMask (width A) p (val m) := by
  obtain ⟨m, -, hm⟩ := maskOfPrefix A p
  rw [show min p (width A) = p by omega] at hm
  exact ⟨m, hm⟩
theorem exists_netOfPrefix (a : A) {p : Nat} (hp : p ≤ width A) : ∃ n, NetOfPrefix n a p := by
  obtain ⟨m, hm⟩ := exists_prefixMask hp
  have hn := (newWithMask_iff _ a m).mp rfl
  exact ⟨Net.newWithMask a m, ⟨hn.1, (hn.1.prefix_iff p).mpr hm⟩, hn.2.1⟩
theorem exists_netOfMask (a m : A) (w : Bool) : ∃ n, NetOfMask n a (if w then 2 ^ width A - 1 - val m else val m) := by
  cases w
  · exact ⟨_, (newWithMask_iff _ a m).mp rfl⟩
  · refine ⟨Net.newWithMask a (IpAddr.negate m), ?_⟩
    rw [if_pos rfl, ← LawfulIpAddr.val_negate]
    exact (newWithMask_iff _ a _).mp rfl
end

/-- No mask or prefix length contains a minus sign. -/
theorem mask_no_minus {k : Str} (h : IsMaskText k) : '-' ∉ k := by
  have hm : ('-' : Char) ≠ '+' ∧ '-' ∉ lowerDigits ∧ '-' ∉ upperDigits := by decide
  have hg : ∀ {gs : List Str} {vs : List Nat}, Pointwise Group gs vs → ∀ g ∈ gs, '-' ∉ g := by
    intro gs vs hp g hgm
    obtain ⟨v, -, hv⟩ := hp.mem_left g hgm
    exact hv.1.not_mem hm
  rcases h with ⟨m, -, h⟩ | ⟨m, -, -, h⟩ | ⟨p, -, -, h, -⟩
  · intro hk
    have hk := mem_completeColons hk
    rcases h with ⟨gs, e, -, hp⟩ | ⟨pre, post, vs, ws, e, -, hp, hq, -⟩
    · rw [e] at hk
      rcases mem_intercalate_colon hk with h | ⟨g, hgm, h⟩
      · exact absurd h (by decide)
      · exact hg hp g hgm h
    · rw [e] at hk
      rcases mem_intercalate_colon hk with h | ⟨g, hgm, h⟩
      · exact absurd h (by decide)
      · rcases List.mem_append.mp hgm with hgm | hgm
        · rcases List.mem_append.mp hgm with hgm | hgm
          · exact hg hp g hgm h
          · rw [List.mem_singleton.mp hgm] at h; cases h
        · exact hg hq g hgm h
  · obtain ⟨t0, t1, t2, t3, v0, v1, v2, v3, rfl, h0, h1, h2, h3, -⟩ := h
    simp only [List.mem_append, List.mem_cons]
    rintro (((h | h | h) | h | h) | h | h)
    · exact h0.1.not_mem hm h
    · exact absurd h (by decide)
    · exact h1.1.not_mem hm h
    · exact absurd h (by decide)
    · exact h2.1.not_mem hm h
    · exact absurd h (by decide)
    · exact h3.1.not_mem hm h
  · exact h.not_mem hm

/-- The resize mode ends with status 0 or with a message. -/
theorem resize_ends (rt : Runtime) (prog mode : Str) (rest : List Str) (hm : mode = "-r".toList ∨ mode = "--resize".toList)
    (h : ∀ m, ¬ ResizeComplaint rest m) : (doMain rt (prog :: mode :: rest)).res = .ok 0 := by
  have hno : messages (doMain rt (prog :: mode :: rest)).out = [] := by
    cases hl : messages (doMain rt (prog :: mode :: rest)).out with
    | nil => rfl
    | cons m ms => exact absurd ((C80_resize rt prog mode rest hm m).mp (hl ▸ List.mem_cons_self)) (h m)
  have hd : mode ∉ ["-d", "--derange", "-s", "--split"].map String.toList := by rcases hm with h | h <;> rw [h] <;> decide
  rcases main_cases rt (prog :: mode :: rest) with h0 | h1 | ⟨-, _, _, _, e, hmem⟩
  · exact h0
  · rcases C76_failure rt _ h1 with h2 | ⟨⟨_, _, _, e, hs⟩, -⟩
    · exact absurd hno h2
    · cases e
      refine absurd ?_ hd
      rcases hs with h | h <;> rw [h] <;> decide
  · cases e
    exact absurd hmem hd

/-- Whatever stands after the slash of a network can stand there with a minus sign in front as well, and is a target for resize without
it, but never with it.  Missing: that `-WILDCARD` can be used where the usage text has SUBNET on its own, which is false
(`C104_target_counterexample`). -/
theorem C104_target_partial (rt : Runtime) (prog mode : Str) (hm : mode = "-r".toList ∨ mode = "--resize".toList) (s l : Str) :
    (IsV4Network s → V4Subnet l →
      (∀ t a w, QuadText t → V4Reading t a → IsV4Network (specText t w l)) ∧ (doMain rt [prog, mode, s, l]).res = .ok 0) ∧
    (IsV6Network s → V6Subnet l →
      (∀ t a w, HexColonText t → V6Reading t a → IsV6Network (specText t w l)) ∧ (doMain rt [prog, mode, s, l]).res = .ok 0) ∧
    ∃ m, doMain rt [prog, mode, s, '-' :: l] = ⟨[.err m], .ok 1⟩ := by
  refine ⟨fun hs hl => ?_, fun hs hl => ?_, ?_⟩
  · have hmask : ∃ m, resizeMask4 l = .ok (.ok m) := by
      rcases hl with ⟨m, hq, hr⟩ | ⟨p, hp, hle⟩
      · exact ⟨m, ((C34_resize_ipv4 l).2 m).mpr ⟨hr.chars.2, .inl ⟨hr.chars.1, hr⟩⟩⟩
      · obtain ⟨m, hm⟩ := exists_prefixMask (A := V4) hle
        exact ⟨m, ((C34_resize_ipv4 l).2 m).mpr ⟨(numeral_digitText hp).no_colon, .inr ⟨(numeral_digitText hp).no_dot, p, .inl hp, hle, hm⟩⟩⟩
    refine ⟨fun t a w ht ha => ?_, resize_ends rt prog mode _ hm fun m hc => ?_⟩
    · rcases hl with ⟨m, hq, hr⟩ | ⟨p, hp, hle⟩
      · obtain ⟨n, hn⟩ := exists_netOfMask a m w
        exact ⟨a, n, t, w, l, rfl, ht, ha, .inl ⟨m, hq, hr, hn⟩⟩
      · obtain ⟨n, hn⟩ := exists_netOfPrefix a (p := if w then 32 - p else p) (by change _ ≤ 32; split <;> omega)
        exact ⟨a, n, t, w, l, rfl, ht, ha, .inr ⟨p, hp, hle, hn⟩⟩
    · obtain ⟨k, hk⟩ := hmask
      have no : ∀ m, resizeMask4 l ≠ .ok (.error m) := fun m h => by rw [hk] at h; cases h
      obtain ⟨h6, hf⟩ : ¬ IsV6Network s ∧ ∀ e, ¬ NetspecFault s e := by
        rcases C80_network_texts s with ⟨-, h2, h3⟩ | ⟨h1, -, -⟩ | ⟨h1, -, -⟩
        · exact ⟨h2, h3⟩
        · exact absurd hs h1
        · exact absurd hs h1
      rcases hc with ⟨h, -⟩ | ⟨s', k', e, h⟩
      · exact h rfl
      · cases e
        rcases h with ⟨e, he, -⟩ | ⟨e, -, he⟩ | ⟨p, -, hp⟩ | ⟨p, h, -⟩ | ⟨a, -, ha⟩ | ⟨a, h, -⟩
        · exact hf e he
        · exact no m ((resizeMask4_error l m).mpr (.inl ⟨e, he⟩))
        · exact no m ((resizeMask4_error l m).mpr (.inr (.inl ⟨p, hp⟩)))
        · exact h6 h
        · exact no m ((resizeMask4_error l m).mpr (.inr (.inr ⟨a, ha⟩)))
        · exact h6 h
  · have hmask : ∃ m, resizeMask6 l = .ok (.ok m) := by
      rcases hl with ⟨m, hq, hc, hr⟩ | ⟨p, hp, hle⟩
      · exact ⟨m, ((C34_resize_ipv6 l).2 m).mpr (.inl ⟨hc, hr⟩)⟩
      · obtain ⟨m, hm⟩ := exists_prefixMask (A := V6) hle
        exact ⟨m, ((C34_resize_ipv6 l).2 m).mpr (.inr ⟨(numeral_digitText hp).no_colon, (numeral_digitText hp).no_dot, p, .inl hp, hle, hm⟩)⟩
    refine ⟨fun t a w ht ha => ?_, resize_ends rt prog mode _ hm fun m hc => ?_⟩
    · rcases hl with ⟨m, hq, hc, hr⟩ | ⟨p, hp, hle⟩
      · obtain ⟨n, hn⟩ := exists_netOfMask a m w
        exact ⟨a, n, t, w, l, rfl, ht, ha, .inl ⟨m, hq, hc, hr, hn⟩⟩
      · obtain ⟨n, hn⟩ := exists_netOfPrefix a (p := if w then 128 - p else p) (by change _ ≤ 128; split <;> omega)
        exact ⟨a, n, t, w, l, rfl, ht, ha, .inr ⟨p, hp, hle, hn⟩⟩
    · obtain ⟨k, hk⟩ := hmask
      have no : ∀ m, resizeMask6 l ≠ .ok (.error m) := fun m h => by rw [hk] at h; cases h
      obtain ⟨h4, hf⟩ : ¬ IsV4Network s ∧ ∀ e, ¬ NetspecFault s e := by
        rcases C80_network_texts s with ⟨-, h2, -⟩ | ⟨h1, -, h3⟩ | ⟨-, h2, -⟩
        · exact absurd hs h2
        · exact ⟨h1, h3⟩
        · exact absurd hs h2
      rcases hc with ⟨h, -⟩ | ⟨s', k', e, h⟩
      · exact h rfl
      · cases e
        rcases h with ⟨e, he, -⟩ | ⟨e, -, he⟩ | ⟨p, h, -⟩ | ⟨p, -, hp⟩ | ⟨a, h, -⟩ | ⟨a, -, ha⟩
        · exact hf e he
        · exact no m ((resizeMask6_error l m).mpr (.inl ⟨e, he⟩))
        · exact h4 h
        · exact no m ((resizeMask6_error l m).mpr (.inr (.inl ⟨p, hp⟩)))
        · exact h4 h
        · exact no m ((resizeMask6_error l m).mpr (.inr (.inr ⟨a, ha⟩)))
  · exact C57_texts rt prog mode [s, '-' :: l] (.inr (.inr (.inr (.inl ⟨hm, s, '-' :: l, rfl,
      .inr fun h => mask_no_minus h List.mem_cons_self⟩))))

/-- A wildcard that is fine after a slash is no target. -/
theorem C104_target_counterexample (rt : Runtime) :
    IsV4Network "10.0.0.0/-0.0.255.255".toList ∧
    doMain rt (["ripcalc", "-r", "10.0.0.0/8", "-0.0.255.255"].map String.toList) =
      ⟨[.err (.resizeSubnet "-0.0.255.255".toList (.mask (.chunkParseError 0 "-0".toList .invalidDigit)))], .ok 1⟩ := by
  refine ⟨(isV4Network_iff _).mp ⟨⟨0x0a000000#32⟩, Net.newWithMask ⟨0x0a000000#32⟩ ⟨0xffff0000#32⟩, by decide +kernel⟩, ?_⟩
  exact ((C64_errors rt _).2 "ripcalc".toList "-r".toList "10.0.0.0/8".toList "-0.0.255.255".toList rfl).2.1
    ⟨0x0a000000#32⟩ (Net.newWithMask ⟨0x0a000000#32⟩ ⟨0xff000000#32⟩) _ (by decide +kernel) (by decide +kernel)

/-! ## Mixing the families -/

theorem first_with {α : Type} {Q : α → Prop} {l : List α} (h : ∃ x ∈ l, Q x) : ∃ pre x post, l = pre ++ x :: post ∧ Q x ∧ ∀ y ∈ pre, ¬ Q y := by
  classical
  induction l with
  | nil => obtain ⟨x, hx, -⟩ := h; cases hx
  | cons a l ih =>
    by_cases ha : Q a
    · exact ⟨[], a, l, rfl, ha, fun y hy => by cases hy⟩
    · obtain ⟨x, hx, hq⟩ := h
      rcases List.mem_cons.mp hx with rfl | hx
      · exact absurd hq ha
      · obtain ⟨pre, x, post, rfl, hq, hn⟩ := ih ⟨x, hx, hq⟩
        refine ⟨a :: pre, x, post, rfl, hq, fun y hy => ?_⟩
        rcases List.mem_cons.mp hy with rfl | hy
        · exact ha
        · exact hn y hy

/-- Both families in one invocation: minimize, derange and resize refuse, each with a message about that and status 1; showing and
enumerating networks work with whatever families there are.  Missing: that they refuse as well, which is false
(`C104_mixing_counterexample`).  The other modes take one network only. -/
theorem C104_mixing_partial (rt : Runtime) (prog mode : Str) :
    (∀ ss : List Str, (mode = "-m".toList ∨ mode = "--minimize".toList) → (∀ s ∈ ss, IsV4Network s ∨ IsV6Network s) →
      (∃ s ∈ ss, IsV4Network s) → (∃ s ∈ ss, IsV6Network s) → doMain rt (prog :: mode :: ss) = ⟨[.err .mixed], .ok 1⟩) ∧
    (∀ u v, (mode = "-d".toList ∨ mode = "--derange".toList) → (IsV4Address u ∧ IsV6Address v) ∨ (IsV6Address u ∧ IsV4Address v) →
      doMain rt [prog, mode, u, v] = ⟨[.err .derangeVersion], .ok 1⟩) ∧
    (∀ s k a, (mode = "-r".toList ∨ mode = "--resize".toList) → IsV4Network s → ':' ∈ k → V6Reading k a →
      doMain rt [prog, mode, s, k] = ⟨[.err .resizeV4ToV6], .ok 1⟩) ∧
    (∀ s k a, (mode = "-r".toList ∨ mode = "--resize".toList) → IsV6Network s → V4Reading k a →
      doMain rt [prog, mode, s, k] = ⟨[.err .resizeV6ToV4], .ok 1⟩) ∧
    (∀ ss : List Str, mode ∉ otherModes → (∀ s ∈ mode :: ss, IsV4Network s ∨ IsV6Network s) → (doMain rt (prog :: mode :: ss)).res = .ok 0) ∧
    (∀ ss : List Str, (mode = "-e".toList ∨ mode = "--enumerate".toList) → ss ≠ [] → (∀ s ∈ ss, IsV4Network s ∨ IsV6Network s) →
      (doMain rt (prog :: mode :: ss)).res = .ok 0) := by
  have one : ∀ (args : List Str) (m : ErrMsg), m ∈ messages (doMain rt args).out → m ≠ .usage → (∀ s e, m ≠ .enumerateNet s e) →
      doMain rt args = ⟨[.err m], .ok 1⟩ := by
    intro args m h hu he
    rcases C76_message rt args m h with h1 | ⟨h1, -⟩ | ⟨_, _, _, s, e, -, -, -, -, h1, -⟩
    · exact h1
    · rw [h1] at h
      exact absurd (List.mem_singleton.mp h) hu
    · exact absurd h1 (he s e)
  have n46 : ∀ s, IsV4Network s → ¬ IsV6Network s := by
    intro s h
    rcases C80_network_texts s with ⟨-, h2, -⟩ | ⟨h1, -, -⟩ | ⟨h1, -, -⟩
    · exact h2
    · exact absurd h h1
    · exact absurd h h1
  refine ⟨fun ss hm hall h4 h6 => ?_, fun u v hm h => ?_, fun s k a hm hs hc hk => ?_, fun s k a hm hs hk => ?_, fun ss hm hall => ?_,
    fun ss hm hne hall => enumerate_ends rt prog mode ss hm hne hall⟩
  · refine one _ _ ((C80_minimize rt prog mode ss hm .mixed).mpr (.inr ?_)) (by simp) (by simp)
    obtain ⟨pre, x, post, e, hx, hpre⟩ := first_with h6
    cases pre with
    | cons y pre =>
      refine ⟨y :: pre, x, post, e, .inr ⟨by simp, .inl ⟨fun z hz => ?_, hx⟩, rfl⟩⟩
      exact (hall z (by rw [e]; exact List.mem_append_left _ hz)).resolve_right (hpre z hz)
    | nil =>
      obtain ⟨pre', x', post', e', hx', hpre'⟩ := first_with h4
      cases pre' with
      | cons y pre =>
        refine ⟨y :: pre, x', post', e', .inr ⟨by simp, .inr ⟨fun z hz => ?_, hx'⟩, rfl⟩⟩
        exact (hall z (by rw [e']; exact List.mem_append_left _ hz)).resolve_left (hpre' z hz)
      | nil =>
        rw [e] at e'
        cases e'
        exact absurd hx (n46 _ hx')
  · exact one _ _ ((C80_derange rt prog mode [u, v] hm .derangeVersion).mpr (.inr ⟨u, v, rfl, .inr (.inr ⟨h, rfl⟩)⟩)) (by simp) (by simp)
  · exact one _ _ ((C80_resize rt prog mode [s, k] hm .resizeV4ToV6).mpr
      (.inr ⟨s, k, rfl, .inr (.inr (.inr (.inr (.inl ⟨a, hs, hc, hk, rfl⟩))))⟩)) (by simp) (by simp)
  · exact one _ _ ((C80_resize rt prog mode [s, k] hm .resizeV6ToV4).mpr
      (.inr ⟨s, k, rfl, .inr (.inr (.inr (.inr (.inr ⟨a, hs, hk.chars.2, hk.chars.1, hk, rfl⟩))))⟩)) (by simp) (by simp)
  · rw [(C56_dispatch rt prog mode ss).2.2.2.2.2.2 hm]
    rcases C58_total rt (prog :: mode :: ss) with ⟨h, -⟩ | ⟨-, -, e, h⟩
    · exact h
    · exfalso
      have hmem : ErrMsg.showParse e ∈ messages (doMain rt (prog :: mode :: ss)).out := by
        rw [(C56_dispatch rt prog mode ss).2.2.2.2.2.2 hm, h]
        exact List.mem_singleton.mpr rfl
      obtain ⟨pre, x, post, e', h1, -, h3, -⟩ := (C80_show rt prog mode ss hm _).mp hmem
      have hx := hall x (by rw [h1]; exact List.mem_append_right _ List.mem_cons_self)
      rcases C80_network_texts x with ⟨-, -, h⟩ | ⟨-, -, h⟩ | ⟨h4, h6, -⟩
      · exact h e' h3
      · exact h e' h3
      · exact hx.elim h4 h6

theorem network4_example : IsV4Network "192.0.2.0/24".toList := (isV4Network_iff _).mp
  ⟨⟨0xc0000200#32⟩, Net.newWithMask ⟨0xc0000200#32⟩ ⟨0xffffff00#32⟩, by decide +kernel⟩
theorem network6_example : IsV6Network "2001:db8::/32".toList := (isV6Network_iff _).mp
  ⟨⟨0x20010db800000000#64, 0#64⟩, Net.newWithMask ⟨0x20010db800000000#64, 0#64⟩ ⟨0xffffffff00000000#64, 0#64⟩,
    by decide +kernel⟩

/-- Showing or enumerating a network of each family works. -/
theorem C104_mixing_counterexample (rt : Runtime) :
    IsV4Network "192.0.2.0/24".toList ∧ IsV6Network "2001:db8::/32".toList ∧
    (doMain rt (["ripcalc", "192.0.2.0/24", "2001:db8::/32"].map String.toList)).res = .ok 0 ∧
    (doMain rt (["ripcalc", "-e", "192.0.2.0/24", "2001:db8::/32"].map String.toList)).res = .ok 0 := by
  have hall : ∀ s ∈ ["192.0.2.0/24".toList, "2001:db8::/32".toList], IsV4Network s ∨ IsV6Network s := by
    intro s hs
    rcases List.mem_cons.mp hs with rfl | hs
    · exact .inl network4_example
    · rw [List.mem_singleton.mp hs]
      exact .inr network6_example
  exact ⟨network4_example, network6_example,
    (C104_mixing_partial rt _ "192.0.2.0/24".toList).2.2.2.2.1 ["2001:db8::/32".toList] (by decide +kernel) hall,
    (C104_mixing_partial rt _ "-e".toList).2.2.2.2.2 _ (.inl rfl) (by simp) hall⟩

/-! The hypotheses can be met. -/

example (rt : Runtime) : doMain rt (["ripcalc", "-m", "192.0.2.0/24", "2001:db8::/32"].map String.toList) = ⟨[.err .mixed], .ok 1⟩ :=
  (C104_mixing_partial rt _ "-m".toList).1 ["192.0.2.0/24".toList, "2001:db8::/32".toList] (.inl rfl)
    (fun s hs => by
      rcases List.mem_cons.mp hs with rfl | hs
      · exact .inl network4_example
      · rw [List.mem_singleton.mp hs]; exact .inr network6_example)
    ⟨_, List.mem_cons_self, network4_example⟩ ⟨_, List.mem_cons_of_mem _ List.mem_cons_self, network6_example⟩

example (rt : Runtime) : (doMain rt (["ripcalc", "-r", "192.0.2.0/24", "28"].map String.toList)).res = .ok 0 :=
  ((C104_target_partial rt _ _ (.inl rfl) _ "28".toList).1 network4_example
    (.inr ⟨28, ⟨by simp, [2, 8], .cons (.inl rfl) (by omega) (.cons (.inl rfl) (by omega) .nil), rfl⟩, by omega⟩)).2

end Ripcalc
