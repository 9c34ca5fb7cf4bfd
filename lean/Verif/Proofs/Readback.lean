import Verif.Proofs.Columns
/-!
# Lemmas about reading a display back
-/
set_option linter.unusedSectionVars false
namespace Ripcalc
open AddrSpec LawfulIpAddr

/-- The text without line ends. -/
def joined (s : Str) : Str := s.filter (· ≠ '\n')

theorem joined_append (s t : Str) : joined (s ++ t) = joined s ++ joined t := List.filter_append ..

theorem joined_none {s : Str} (h : '\n' ∉ s) : joined s = s :=
  List.filter_eq_self.mpr fun c hc => by
    have : c ≠ '\n' := fun e => h (e ▸ hc)
    simpa using this

theorem joined_plain {s : Str} (h : PlainText s) : joined s = s := joined_none (plain_newline h)

theorem joined_block {aw : Nat} {l t b : Str} (hl : PlainText l) (ht : PlainText t) (hb : PlainText b) :
    joined (blockLine aw l t b) = padRight 11 l ++ padRight aw t ++ b := by
  rw [blockLine, joined_append, joined_none]
  · rw [show joined ['\n'] = [] from rfl, List.append_nil]
  · rw [List.mem_append, List.mem_append, not_or, not_or]
    exact ⟨⟨padRight_newline (plain_newline hl), padRight_newline (plain_newline ht)⟩, plain_newline hb⟩

theorem pad_split {k : Nat} {s : Str} (h : s.length < k) (r : Str) :
    padRight k s ++ r = s ++ ' ' :: (List.replicate (k - s.length - 1) ' ' ++ r) := by
  rw [padRight, show k - s.length = (k - s.length - 1) + 1 by omega, List.replicate_succ]
  simp

theorem padRight_length {k : Nat} {s : Str} (h : s.length < k) : (padRight k s).length = k := by
  rw [padRight, List.length_append, List.length_replicate]; omega

section generic
variable {A : Type} [IpAddr A] [AddrSpec A] [LawfulIpAddr A]

/-! ## A network is determined by little -/

theorem net_ext {n n' : Net A} (hn : WF n) (hn' : WF n') (hb : n.baseAddr = n'.baseAddr) (hm : n.subnetMask = n'.subnetMask) : n = n' := by
  have hp : n.cidrPrefix = n'.cidrPrefix := by
    apply Option.ext
    intro p
    rw [hn.prefix_iff, hn'.prefix_iff, hm]
  cases n; cases n'
  simp_all

/-- By an address and the mask. -/
theorem net_of_member {n n' : Net A} (hn : WF n) (hn' : WF n') {a : A} (ha : Member n a) (ha' : Member n' a)
    (hm : n.subnetMask = n'.subnetMask) : n = n' := by
  refine net_ext hn hn' (addr_ext fun i hi => ?_) hm
  cases h : (val n.subnetMask).testBit i with
  | true => rw [← ha i hi h, ha' i hi (by rw [← hm]; exact h)]
  | false => rw [hn.host_zero i hi h, hn'.host_zero i hi (by rw [← hm]; exact h)]

/-- The address is the greatest of the network. -/
def IsLast (n : Net A) (x : A) : Prop := Member n x ∧ ∀ a, Member n a → val a ≤ val x

theorem greatest_bit {n : Net A} {x : A} (h : IsLast n x) {i : Nat} (hi : i < width A)
    (hm : (val n.subnetMask).testBit i = false) : (val x).testBit i = true := by
  cases hx : (val x).testBit i with
  | true => rfl
  | false =>
    exfalso
    have hlt : val x ||| 2 ^ i < 2 ^ width A := Nat.or_lt_two_pow (val_lt x) (Nat.pow_lt_pow_right (by omega) hi)
    obtain ⟨y, hy⟩ := val_surj (A := A) _ hlt
    have hmem : Member n y := by
      intro j hj hmj
      have hne : i ≠ j := by rintro rfl; rw [hm] at hmj; cases hmj
      rw [hy, Nat.testBit_or, Nat.testBit_two_pow, decide_eq_false hne, Bool.or_false]
      exact h.1 j hj hmj
    have hle := h.2 y hmem
    rw [hy] at hle
    have heq : val x ||| 2 ^ i = val x := Nat.le_antisymm hle Nat.left_le_or
    have : (val x ||| 2 ^ i).testBit i = true := by rw [Nat.testBit_or]; simp
    rw [heq, hx] at this
    cases this

/-- By the first and the last address. -/
theorem net_of_ends {n n' : Net A} (hn : WF n) (hn' : WF n') (hb : n.baseAddr = n'.baseAddr) {x : A} (hx : IsLast n x)
    (hx' : IsLast n' x) : n = n' := by
  refine net_ext hn hn' hb (addr_ext fun i hi => ?_)
  cases h : (val n.subnetMask).testBit i with
  | true =>
    cases h' : (val n'.subnetMask).testBit i with
    | true => rfl
    | false =>
      have h1 := greatest_bit hx' hi h'
      rw [hx.1 i hi h, hb, hn'.host_zero i hi h'] at h1
      cases h1
  | false =>
    cases h' : (val n'.subnetMask).testBit i with
    | false => rfl
    | true =>
      have h1 := greatest_bit hx hi h
      rw [hx'.1 i hi h', ← hb, hn.host_zero i hi h] at h1
      cases h1

/-- What is displayed for a network is determined. -/
theorem describes_unique {n : Net A} {addr : Option A} {b b' : BlockText A} (h : b.Describes n addr) (h' : b'.Describes n addr)
    (hc : b.cls = b'.cls) : b = b' := by
  have hw : b.wildcard = b'.wildcard := addr_ext fun i hi => by rw [h.wildcard i hi, h'.wildcard i hi]
  have hbc : b.broadcast = b'.broadcast := by
    cases e : b.broadcast with
    | none => rw [(h'.no_broadcast).mpr (h.no_broadcast.mp e)]
    | some x =>
      cases e' : b'.broadcast with
      | none => rw [h.no_broadcast.mpr (h'.no_broadcast.mp e')] at e; cases e
      | some x' =>
        obtain ⟨h1, h2⟩ := h.broadcast x e
        obtain ⟨h3, h4⟩ := h'.broadcast x' e'
        rw [val_inj _ _ (Nat.le_antisymm (h4 x h1) (h2 x' h3))]
  have hh : b.hosts = b'.hosts := by
    cases e : b.hosts with
    | none => rw [(h'.no_hosts).mpr (h.no_hosts.mp e)]
    | some x =>
      cases e' : b'.hosts with
      | none => rw [h.no_hosts.mpr (h'.no_hosts.mp e')] at e; cases e
      | some x' =>
        obtain ⟨f, l⟩ := x
        obtain ⟨f', l'⟩ := x'
        obtain ⟨f1, f2, f3⟩ := h.first_host f l e
        obtain ⟨f4, f5, f6⟩ := h'.first_host f' l' e'
        obtain ⟨l1, ⟨a, l2, l3⟩, l4⟩ := h.last_host f l e
        obtain ⟨l5, ⟨a', l6, l7⟩, l8⟩ := h'.last_host f' l' e'
        rw [val_inj _ _ (Nat.le_antisymm (f3 f' f4 f5) (f6 f f1 f2)),
          val_inj _ _ (Nat.le_antisymm (l8 l a l1 l2 l3) (l4 l' a' l5 l6 l7))]
  have hk : b.hostCount = b'.hostCount := by rw [h.hostCount, h'.hostCount]
  have ha : b.address = b'.address := by rw [h.address, h'.address]
  have hn : b.network = b'.network := by rw [h.network, h'.network]
  cases b; cases b'
  simp_all

/-! ## Reading -/

variable {aw tw : Nat} {show_ binary : A → Str} (L : Layout A aw tw show_ binary)
include L

theorem Layout.joined_address {n : Net A} (hn : WF n) {a : A} {b : BlockText A} (hd : b.Describes n (some a)) (X : Str) :
    ∃ r, joined (b.render aw show_ binary) ++ X =
      padRight 11 "Address:".toList ++ (show_ a ++ ' ' :: (List.replicate (aw - (show_ a).length - 1) ' ' ++
        (binary a ++ (padRight 11 "Netmask:".toList ++ (show_ n.subnetMask ++ ' ' :: r))))) := by
  have hm := L.maskText hn
  have hmask : ∀ R, ∃ r, padRight aw (Ripcalc.maskText show_ n) ++ R = show_ n.subnetMask ++ ' ' :: r := by
    intro R
    cases hp : n.cidrPrefix with
    | none =>
      have e : Ripcalc.maskText show_ n = show_ n.subnetMask := by rw [Ripcalc.maskText, hp]
      rw [e]
      exact ⟨_, pad_split (L.length _) R⟩
    | some p =>
      have e : Ripcalc.maskText show_ n = show_ n.subnetMask ++ " = ".toList ++ showNat 10 p := by rw [Ripcalc.maskText, hp]
      rw [pad_split hm.1 R, e]
      exact ⟨"= ".toList ++ showNat 10 p ++ _, by
        rw [show " = ".toList = ' ' :: "= ".toList from rfl]
        simp only [List.append_assoc, List.cons_append]
        rfl⟩
  have hadd : addressLines aw show_ binary n b.wildcard (some a) = blockLine aw "Address:".toList (show_ a) (binary a) ++
      blockLine aw "Netmask:".toList (Ripcalc.maskText show_ n) (binary n.subnetMask) ++
      blockLine aw "Wildcard:".toList (show_ b.wildcard) (binary b.wildcard) ++ "=>\n".toList := rfl
  rw [BlockText.render, hd.address, hd.network, hadd]
  simp only [joined_append, List.append_assoc]
  rw [joined_block (t := show_ a) (by decide) (L.plain a) (L.binPlain a),
    joined_block (t := Ripcalc.maskText show_ n) (by decide) hm.2.2 (L.binPlain _)]
  simp only [List.append_assoc]
  obtain ⟨r, hr⟩ := hmask (binary n.subnetMask ++ (joined (blockLine aw "Wildcard:".toList (show_ b.wildcard) (binary b.wildcard)) ++
    (joined "=>\n".toList ++ (joined (networkLine aw show_ binary n) ++ (joined (hostLines aw show_ binary b.hosts) ++
      (joined (broadcastLine aw show_ binary b.broadcast) ++ (joined (countLine aw b.hostCount b.cls) ++ X)))))))
  refine ⟨r, ?_⟩
  rw [hr, pad_split (L.length a)]

/-- The display of an address with its network, followed by anything. -/
theorem Layout.read_address {n n' : Net A} (hn : WF n) (hn' : WF n') {a a' : A} {b b' : BlockText A} (hd : b.Describes n (some a))
    (hd' : b'.Describes n' (some a')) (ha : Member n a) (ha' : Member n' a') {X X' : Str}
    (h : joined (b.render aw show_ binary) ++ X = joined (b'.render aw show_ binary) ++ X') : a = a' ∧ n = n' := by
  obtain ⟨r, e⟩ := L.joined_address hn hd X
  obtain ⟨r', e'⟩ := L.joined_address hn' hd' X'
  rw [e, e'] at h
  have h1 := List.append_cancel_left h
  obtain ⟨h2, h3⟩ := sep_inj (L.blank a) (L.blank a') h1
  obtain rfl := L.inj a a' h2
  have h4 := List.append_cancel_left (List.append_cancel_left (List.append_cancel_left h3))
  obtain ⟨h5, -⟩ := sep_inj (L.blank _) (L.blank _) h4
  exact ⟨rfl, net_of_member hn hn' ha ha' (L.inj _ _ h5)⟩

theorem Layout.line_length {label text : Str} (hl : label.length < 11) (ht : text.length < aw) (x : A) :
    (padRight 11 label ++ padRight aw text ++ binary x).length = 11 + aw + tw := by
  rw [List.length_append, List.length_append, padRight_length hl, padRight_length ht, L.binLength]

theorem Layout.skip_hosts (o o' : Option (A × A)) {Y Y' : Str}
    (h : joined (hostLines aw show_ binary o) ++ Y = joined (hostLines aw show_ binary o') ++ Y') : Y = Y' := by
  have hsome : ∀ f l : A, joined (hostLines aw show_ binary (some (f, l))) =
      padRight 11 "HostMin:".toList ++ padRight aw (show_ f) ++ binary f ++
      (padRight 11 "HostMax:".toList ++ padRight aw (show_ l) ++ binary l) := by
    intro f l
    rw [← joined_block (t := show_ f) (by decide) (L.plain f) (L.binPlain f),
      ← joined_block (t := show_ l) (by decide) (L.plain l) (L.binPlain l), ← joined_append]
    rfl
  have hlen : ∀ f l : A, (joined (hostLines aw show_ binary (some (f, l)))).length = 2 * (11 + aw + tw) := by
    intro f l
    rw [hsome, List.length_append, L.line_length (by decide) (L.length f), L.line_length (by decide) (L.length l)]
    omega
  have hhead : ∀ f l : A, ∃ r, joined (hostLines aw show_ binary (some (f, l))) = 'H' :: r := by
    intro f l
    rw [hsome]
    exact ⟨_, rfl⟩
  have hnone : joined (hostLines aw show_ binary none) = 'n' :: "o hosts".toList := rfl
  rcases o with _ | ⟨f, l⟩ <;> rcases o' with _ | ⟨f', l'⟩
  · exact List.append_cancel_left h
  · obtain ⟨r, e⟩ := hhead f' l'
    rw [hnone, e, List.cons_append, List.cons_append] at h
    exact absurd (List.cons.inj h).1 (by decide)
  · obtain ⟨r, e⟩ := hhead f l
    rw [hnone, e, List.cons_append, List.cons_append] at h
    exact absurd (List.cons.inj h).1 (by decide)
  · exact (List.append_inj h (by rw [hlen, hlen])).2

theorem Layout.read_broadcast (o o' : Option A) {Y Y' : Str}
    (h : joined (broadcastLine aw show_ binary o) ++ Y = joined (broadcastLine aw show_ binary o') ++ Y') : o = o' := by
  have hsome : ∀ x : A, joined (broadcastLine aw show_ binary (some x)) =
      padRight 11 "Broadcast:".toList ++ padRight aw (show_ x) ++ binary x := fun x =>
    joined_block (t := show_ x) (by decide) (L.plain x) (L.binPlain x)
  have hhead : ∀ x : A, ∃ r, joined (broadcastLine aw show_ binary (some x)) = 'B' :: r := fun x => ⟨_, hsome x⟩
  have hnone : joined (broadcastLine aw show_ binary (none : Option A)) = 'n' :: "o broadcast".toList := rfl
  cases o with
  | none =>
    cases o' with
    | none => rfl
    | some x =>
      obtain ⟨r, e⟩ := hhead x
      rw [hnone, e, List.cons_append, List.cons_append] at h
      exact absurd (List.cons.inj h).1 (by decide)
  | some x =>
    cases o' with
    | none =>
      obtain ⟨r, e⟩ := hhead x
      rw [hnone, e, List.cons_append, List.cons_append] at h
      exact absurd (List.cons.inj h).1 (by decide)
    | some x' =>
      rw [hsome, hsome] at h
      simp only [List.append_assoc] at h
      rw [pad_split (L.length x), pad_split (L.length x')] at h
      rw [L.inj _ _ (sep_inj (L.blank x) (L.blank x') (List.append_cancel_left h)).1]

theorem Layout.joined_network {n : Net A} (hn : WF n) {b : BlockText A} (hd : b.Describes n none) (X : Str) :
    joined (b.render aw show_ binary) ++ X =
      padRight 11 "Network:".toList ++ (padRight aw (Ripcalc.netText show_ n) ++ (binary n.baseAddr ++
        (joined (hostLines aw show_ binary b.hosts) ++ (joined (broadcastLine aw show_ binary b.broadcast) ++
          (joined (countLine aw b.hostCount b.cls) ++ X))))) := by
  have hnet : joined (networkLine aw show_ binary n) =
      padRight 11 "Network:".toList ++ padRight aw (Ripcalc.netText show_ n) ++ binary n.baseAddr :=
    joined_block (t := Ripcalc.netText show_ n) (by decide) (L.netText hn).2.2.1 (L.binPlain _)
  rw [BlockText.render, hd.address, hd.network, addressLines, List.nil_append]
  simp only [joined_append, hnet, List.append_assoc]

/-- The display of a network without an address, followed by anything. -/
theorem Layout.read_network {n n' : Net A} (hn : WF n) (hn' : WF n') {b b' : BlockText A} (hd : b.Describes n none)
    (hd' : b'.Describes n' none) {X X' : Str}
    (h : joined (b.render aw show_ binary) ++ X = joined (b'.render aw show_ binary) ++ X') : n = n' := by
  rw [L.joined_network hn hd X, L.joined_network hn' hd' X'] at h
  have h1 := List.append_cancel_left h
  have ht := L.netText hn
  have ht' := L.netText hn'
  rw [pad_split ht.1, pad_split ht'.1] at h1
  obtain ⟨h2, h3⟩ := sep_inj ht.2.2.2 ht'.2.2.2 h1
  rw [h2] at h3
  have h4 := List.append_cancel_left h3
  have hslash : ∀ (a : A) (p : Nat), '/' ∈ show_ a ++ ['/'] ++ showNat 10 p := fun a p => by simp
  rw [Ripcalc.netText, Ripcalc.netText] at h2
  cases hp : n.cidrPrefix with
  | some p =>
    cases hp' : n'.cidrPrefix with
    | some p' =>
      rw [hp, hp'] at h2
      simp only [List.append_assoc, List.singleton_append] at h2
      obtain ⟨e1, e2⟩ := sep_inj (L.slash _) (L.slash _) h2
      obtain rfl := showNat_inj (by omega) (by omega) e2
      have hm := isPrefixMask_inj ((hn.prefix_iff p).mp hp) ((hn'.prefix_iff p).mp hp')
      exact net_ext hn hn' (L.inj _ _ e1) hm
    | none =>
      rw [hp, hp'] at h2
      dsimp only at h2
      exact absurd (h2 ▸ hslash n.baseAddr p) (L.slash _)
  | none =>
    cases hp' : n'.cidrPrefix with
    | some p' =>
      rw [hp, hp'] at h2
      dsimp only at h2
      exact absurd (h2 ▸ hslash n'.baseAddr p') (L.slash _)
    | none =>
      rw [hp, hp'] at h2
      dsimp only at h2
      have hb := L.inj _ _ h2
      rw [hb] at h4
      have h5 := L.skip_hosts _ _ (List.append_cancel_left h4)
      have h6 := L.read_broadcast _ _ h5
      cases hx : b.broadcast with
      | some x => exact net_of_ends hn hn' hb (hd.broadcast x hx) (hd'.broadcast x (h6 ▸ hx))
      | none =>
        have hg : ∀ {n : Net A} {b : BlockText A}, b.Describes n none → b.broadcast = none → IsLast n n.baseAddr :=
          fun {n b} hd h => ⟨base_member n, fun a ha => by rw [hd.no_broadcast.mp h a ha]; exact Nat.le_refl _⟩
        have hx' : b'.broadcast = none := h6 ▸ hx
        have := hg hd' hx'
        rw [← hb] at this
        exact net_of_ends hn hn' hb (hg hd hx) this

end generic

end Ripcalc
