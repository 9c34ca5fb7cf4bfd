import Verif.Model.Messages
import Verif.Spec.Messages
import Verif.Proofs.Text
/-!
# Lemmas about the wording of messages
-/
namespace Ripcalc

/-! ## Quoting -/

theorem readQuote_hex (t : Str) (ds : List Nat) (hd : Digits 16 t ds) (hl : ∀ c ∈ t, c ∈ lowerDigits) (acc : Nat) (r : Str) :
    readQuote (.hex acc) (t ++ '}' :: r) =
      (readQuote .plain r).map (fun x => (Char.ofNat (ds.foldl (fun a d => a * 16 + d) acc) :: x.1, x.2)) := by
  have tab : ∀ d, d < 16 → ∀ c ∈ lowerDigits, (lowerDigits[d]? = some c ∨ upperDigits[d]? = some c) →
      c ≠ '}' ∧ lowerDigits.idxOf? c = some d := by decide
  induction hd generalizing acc with
  | nil => simp [readQuote]
  | @cons c d cs ds h1 h2 _ ih =>
    obtain ⟨k1, k2⟩ := tab d h2 c (hl c (by simp)) h1
    rw [List.cons_append, readQuote, if_neg k1, k2]
    exact ih (fun x hx => hl x (by simp [hx])) _

theorem readQuote_unicode (c : Char) (r : Str) :
    readQuote .plain (escapeUnicode c ++ r) = (readQuote .plain r).map (fun x => (c :: x.1, x.2)) := by
  obtain ⟨⟨-, ds, h1, h2⟩, h3, -⟩ := showNat_canonical (radix := 16) (by omega) (by omega) c.toNat
  have := readQuote_hex _ ds h1 h3 0 r
  rw [show escapeUnicode c ++ r = '\\' :: 'u' :: '{' :: (showNat 16 c.toNat ++ '}' :: r) by simp [escapeUnicode]]
  rw [readQuote, if_neg (by decide), if_pos rfl, readQuote, if_pos rfl, readQuote, if_pos rfl, this]
  have hv : ds.foldl (fun a d => a * 16 + d) 0 = c.toNat := by rw [← h2]; rfl
  rw [hv, Char.ofNat_toNat]

theorem readQuote_plain {c : Char} (h1 : c ≠ '"') (h2 : c ≠ '\\') (r : Str) :
    readQuote .plain ([c] ++ r) = (readQuote .plain r).map (fun x => (c :: x.1, x.2)) := by
  rw [List.singleton_append, readQuote, if_neg h1, if_neg h2]

theorem readQuote_escapeChar (u : CharTable) (c : Char) (r : Str) :
    readQuote .plain (escapeChar u c ++ r) = (readQuote .plain r).map (fun x => (c :: x.1, x.2)) := by
  unfold escapeChar
  split
  · rename_i h
    rw [show c = Char.ofNat 0 from by rw [← h, Char.ofNat_toNat]]
    simp [readQuote, shortEscapes]
  split
  · rename_i h; subst h; simp [readQuote, shortEscapes, List.lookup]
  split
  · rename_i h; subst h; simp [readQuote, shortEscapes, List.lookup]
  split
  · rename_i h; subst h; simp [readQuote, shortEscapes, List.lookup]
  split
  · rename_i h; subst h; simp [readQuote, shortEscapes, List.lookup]
  split
  · rename_i h; subst h; simp [readQuote, shortEscapes, List.lookup]
  rename_i h1 h2
  split
  · exact readQuote_unicode c r
  split
  · exact readQuote_plain h2 h1 r
  split
  · exact readQuote_plain h2 h1 r
  · exact readQuote_unicode c r

theorem readQuoted_quoteStr (u : CharTable) (s r : Str) : readQuoted (quoteStr u s ++ r) = some (s, r) := by
  rw [quoteStr, List.append_assoc, List.append_assoc, List.singleton_append, readQuoted]
  induction s with
  | nil => simp [readQuote]
  | cons c s ih => rw [List.flatMap_cons, List.append_assoc, readQuote_escapeChar, ih]; rfl

theorem quoteStr_cancel {u u' : CharTable} {s s' r r' : Str} (h : quoteStr u s ++ r = quoteStr u' s' ++ r') : s = s' ∧ r = r' := by
  have h1 := readQuoted_quoteStr u s r
  rw [h, readQuoted_quoteStr] at h1
  cases h1
  exact ⟨rfl, rfl⟩

/-! ## Visible characters -/

theorem visible_lowerDigit {c : Char} (h : c ∈ lowerDigits) : Visible c := by
  have : ∀ c ∈ lowerDigits, Visible c := by decide
  exact this c h

theorem visible_showNat (n : Nat) : ∀ c ∈ showNat 10 n, Visible c :=
  fun _ h => visible_lowerDigit (showNat_mem (by omega) (by omega) h)

theorem visible_escapeUnicode (c : Char) : ∀ d ∈ escapeUnicode c, Visible d := by
  intro d hd
  have tab : ∀ d ∈ ['\\', 'u', '{'] ++ ['}'], Visible d := by decide
  rw [escapeUnicode, List.mem_append, List.mem_append] at hd
  rcases hd with (hd | hd) | hd
  · exact tab d (List.mem_append_left ['}'] hd)
  · exact visible_lowerDigit (showNat_mem (by omega) (by omega) hd)
  · rw [List.mem_singleton.mp hd]; decide

theorem visible_escapeChar (u : CharTable) (c : Char) : ∀ d ∈ escapeChar u c, Visible d := by
  unfold escapeChar
  split; · decide
  split; · decide
  split; · decide
  split; · decide
  split; · decide
  split; · decide
  split; · exact visible_escapeUnicode c
  rename_i h0
  split
  · rename_i h; intro d hd; rw [List.mem_singleton.mp hd]
    exact ⟨by omega, by omega, by omega, by omega⟩
  rename_i h
  split
  · rename_i hp
    intro d hd; rw [List.mem_singleton.mp hd]
    refine ⟨by omega, fun h' => ?_, fun h' => ?_, fun h' => ?_⟩
    · rw [u.hidden c (.inl h')] at hp; cases hp
    · rw [u.hidden c (.inr (.inl h'))] at hp; cases hp
    · rw [u.hidden c (.inr (.inr h'))] at hp; cases hp
  · exact visible_escapeUnicode c

theorem visible_quoteStr (u : CharTable) (s : Str) : ∀ c ∈ quoteStr u s, Visible c := by
  intro c hc
  rw [quoteStr, List.mem_append, List.mem_append] at hc
  rcases hc with (hc | hc) | hc
  · rw [List.mem_singleton.mp hc]; decide
  · obtain ⟨d, -, hd⟩ := List.mem_flatMap.mp hc
    exact visible_escapeChar u d c hd
  · rw [List.mem_singleton.mp hc]; decide

theorem all_visible_append {s t : Str} (hs : ∀ c ∈ s, Visible c) (ht : ∀ c ∈ t, Visible c) : ∀ c ∈ s ++ t, Visible c :=
  fun c hc => (List.mem_append.mp hc).elim (hs c) (ht c)

theorem visible_intErrText (e : IntErr) : ∀ c ∈ intErrText e, Visible c := by cases e <;> decide +kernel
theorem visible_intErrDebug (e : IntErr) : ∀ c ∈ intErrDebug e, Visible c := by cases e <;> decide +kernel
theorem visible_bigIntErrText (s : Str) : ∀ c ∈ bigIntErrText s, Visible c := by
  unfold bigIntErrText; split <;> decide +kernel

theorem visible_addrErrText (u : CharTable) (e : AddrErr) : ∀ c ∈ addrErrText u e, Visible c := by
  cases e <;> simp only [addrErrText]
  all_goals repeat first | with_reducible exact visible_showNat _ | with_reducible exact visible_quoteStr u _ | with_reducible exact visible_intErrText _ |
    with_reducible apply all_visible_append | decide +kernel

theorem visible_addrErrDebug (u : CharTable) (e : AddrErr) : ∀ c ∈ addrErrDebug u e, Visible c := by
  cases e <;> simp only [addrErrDebug]
  all_goals repeat first | with_reducible exact visible_showNat _ | with_reducible exact visible_quoteStr u _ | with_reducible exact visible_intErrDebug _ |
    with_reducible apply all_visible_append | decide +kernel

theorem visible_netspecErrText (u : CharTable) (e : NetspecErr) : ∀ c ∈ netspecErrText u e, Visible c := by
  cases e <;> simp only [netspecErrText]
  all_goals repeat first | with_reducible exact visible_showNat _ | with_reducible exact visible_quoteStr u _ | with_reducible exact visible_intErrDebug _ |
    with_reducible exact visible_addrErrDebug u _ | with_reducible apply all_visible_append | decide +kernel

theorem netspecErrText_ne_nil (u : CharTable) (e : NetspecErr) : netspecErrText u e ≠ [] := by
  cases e <;> simp [netspecErrText, quoteStr]

/-- Every message other than the usage text is one line. -/
theorem message_one_line (u : CharTable) (m : ErrMsg) (hm : m ≠ .usage) : OneLine (m.text u) := by
  have key : ∀ body : Str, m.lines u = [body] → body ≠ [] → (∀ c ∈ body, Visible c) → OneLine (m.text u) :=
    fun body h1 h2 h3 => ⟨body, by rw [ErrMsg.text, h1]; simp, h2, h3⟩
  cases m
  case usage => exact absurd rfl hm
  case showParse e => exact key _ rfl (netspecErrText_ne_nil u e) (visible_netspecErrText u e)
  all_goals
    refine key _ rfl (by simp) ?_
    repeat first | with_reducible exact visible_showNat _ | with_reducible exact visible_quoteStr u _ | with_reducible exact visible_netspecErrText u _ |
      with_reducible exact visible_addrErrText u _ | with_reducible exact visible_bigIntErrText _ | with_reducible apply all_visible_append | decide +kernel

/-! ## Messages determine what they report -/

/-- Different literal beginnings. -/
theorem lit_prefix {p q r r' : Str} (h : p ++ r = q ++ r') :
    p.take (min p.length q.length) = q.take (min p.length q.length) := by
  have := congrArg (List.take (min p.length q.length)) h
  rwa [List.take_append_of_le_length (by omega), List.take_append_of_le_length (by omega)] at this

/-- The text does not go on with a digit. -/
def Delimited (r : Str) : Prop := ∀ c ∈ r.head?, c ∉ lowerDigits

theorem showNat_cancel {m n : Nat} {r r' : Str} (hr : Delimited r) (hr' : Delimited r')
    (h : showNat 10 m ++ r = showNat 10 n ++ r') : m = n ∧ r = r' := by
  have key : ∀ (s t r r' : Str), (∀ c ∈ s, c ∈ lowerDigits) → (∀ c ∈ t, c ∈ lowerDigits) → Delimited r → Delimited r' →
      s ++ r = t ++ r' → s = t ∧ r = r' := by
    intro s
    induction s with
    | nil =>
      intro t r r' _ ht hr _ h
      cases t with
      | nil => exact ⟨rfl, h⟩
      | cons c t =>
        rw [List.nil_append] at h
        exact absurd (ht c (by simp)) (hr c (by rw [h]; rfl))
    | cons c s ih =>
      intro t r r' hs ht hr hr' h
      cases t with
      | nil =>
        rw [List.nil_append] at h
        exact absurd (hs c (by simp)) (hr' c (by rw [← h]; rfl))
      | cons d t =>
        rw [List.cons_append, List.cons_append, List.cons.injEq] at h
        obtain ⟨h1, h2⟩ := ih t r r' (fun x hx => hs x (by simp [hx])) (fun x hx => ht x (by simp [hx])) hr hr' h.2
        exact ⟨by rw [h.1, h1], h2⟩
  obtain ⟨h1, h2⟩ := key _ _ _ _ (fun _ => showNat_mem (by omega) (by omega)) (fun _ => showNat_mem (by omega) (by omega)) hr hr' h
  exact ⟨showNat_inj (by omega) (by omega) h1, h2⟩

theorem intErrText_cancel {e e' : IntErr} {r r' : Str} (h : intErrText e ++ r = intErrText e' ++ r') : e = e' ∧ r = r' := by
  cases e <;> cases e' <;> first
    | exact ⟨rfl, List.append_cancel_left h⟩
    | exact absurd (lit_prefix h) (by decide +kernel)

theorem intErrDebug_cancel {e e' : IntErr} {r r' : Str} (h : intErrDebug e ++ r = intErrDebug e' ++ r') : e = e' ∧ r = r' := by
  cases e <;> cases e' <;> first
    | exact ⟨rfl, List.append_cancel_left h⟩
    | exact absurd (lit_prefix h) (by decide +kernel)

theorem delimited_of (s r : Str) (h : (match s with | [] => false | c :: _ => !lowerDigits.contains c) = true) : Delimited (s ++ r) := by
  cases s with
  | nil => cases h
  | cons c s =>
    intro d hd
    cases hd
    simpa using h

theorem addrErrText_cancel {u u' : CharTable} {e e' : AddrErr} {r r' : Str} (hr : Delimited r) (hr' : Delimited r')
    (h : addrErrText u e ++ r = addrErrText u' e' ++ r') : e = e' ∧ r = r' := by
  cases e <;> cases e' <;> simp only [addrErrText, List.append_assoc] at h <;>
    first | exact absurd (lit_prefix h) (by decide +kernel) | skip
  case unknownAddressType.unknownAddressType => exact ⟨rfl, List.append_cancel_left h⟩
  case incorrectChunkCount.incorrectChunkCount =>
    obtain ⟨rfl, h1⟩ := showNat_cancel (delimited_of _ _ (by decide +kernel)) (delimited_of _ _ (by decide +kernel)) (List.append_cancel_left h)
    obtain ⟨rfl, h2⟩ := showNat_cancel hr hr' (List.append_cancel_left h1)
    exact ⟨rfl, h2⟩
  case tooManyShorteningElements.tooManyShorteningElements =>
    obtain ⟨rfl, h1⟩ := showNat_cancel (delimited_of _ _ (by decide +kernel)) (delimited_of _ _ (by decide +kernel)) (List.append_cancel_left h)
    obtain ⟨rfl, h2⟩ := showNat_cancel hr hr' (List.append_cancel_left h1)
    exact ⟨rfl, h2⟩
  case emptyChunk.emptyChunk =>
    obtain ⟨rfl, h1⟩ := showNat_cancel (delimited_of _ _ (by decide +kernel)) (delimited_of _ _ (by decide +kernel)) (List.append_cancel_left h)
    exact ⟨rfl, List.append_cancel_left h1⟩
  case chunkParseError.chunkParseError =>
    obtain ⟨rfl, h1⟩ := showNat_cancel (delimited_of _ _ (by decide +kernel)) (delimited_of _ _ (by decide +kernel)) (List.append_cancel_left h)
    obtain ⟨rfl, h2⟩ := quoteStr_cancel (List.append_cancel_left h1)
    obtain ⟨rfl, h3⟩ := intErrText_cancel (List.append_cancel_left h2)
    exact ⟨rfl, h3⟩
  case chunkOutOfRange.chunkOutOfRange =>
    obtain ⟨rfl, h1⟩ := showNat_cancel (delimited_of _ _ (by decide +kernel)) (delimited_of _ _ (by decide +kernel)) (List.append_cancel_left h)
    obtain ⟨rfl, h2⟩ := showNat_cancel (delimited_of _ _ (by decide +kernel)) (delimited_of _ _ (by decide +kernel)) (List.append_cancel_left h1)
    obtain ⟨rfl, h3⟩ := showNat_cancel (delimited_of _ _ (by decide +kernel)) (delimited_of _ _ (by decide +kernel)) (List.append_cancel_left h2)
    obtain ⟨rfl, h4⟩ := showNat_cancel (delimited_of _ _ (by decide +kernel)) (delimited_of _ _ (by decide +kernel)) (List.append_cancel_left h3)
    exact ⟨rfl, List.append_cancel_left h4⟩
  all_goals
    obtain ⟨-, h1⟩ := showNat_cancel (delimited_of _ _ (by decide +kernel)) (delimited_of _ _ (by decide +kernel)) (List.append_cancel_left h)
    exact absurd (lit_prefix h1) (by decide +kernel)

theorem addrErrDebug_cancel {u u' : CharTable} {e e' : AddrErr} {r r' : Str}
    (h : addrErrDebug u e ++ r = addrErrDebug u' e' ++ r') : e = e' ∧ r = r' := by
  cases e <;> cases e' <;> simp only [addrErrDebug, List.append_assoc] at h <;>
    first | exact absurd (lit_prefix h) (by decide +kernel) | skip
  case unknownAddressType.unknownAddressType => exact ⟨rfl, List.append_cancel_left h⟩
  case incorrectChunkCount.incorrectChunkCount =>
    obtain ⟨rfl, h1⟩ := showNat_cancel (delimited_of _ _ (by decide +kernel)) (delimited_of _ _ (by decide +kernel)) (List.append_cancel_left h)
    obtain ⟨rfl, h2⟩ := showNat_cancel (delimited_of _ _ (by decide +kernel)) (delimited_of _ _ (by decide +kernel)) (List.append_cancel_left h1)
    exact ⟨rfl, List.append_cancel_left h2⟩
  case tooManyShorteningElements.tooManyShorteningElements =>
    obtain ⟨rfl, h1⟩ := showNat_cancel (delimited_of _ _ (by decide +kernel)) (delimited_of _ _ (by decide +kernel)) (List.append_cancel_left h)
    obtain ⟨rfl, h2⟩ := showNat_cancel (delimited_of _ _ (by decide +kernel)) (delimited_of _ _ (by decide +kernel)) (List.append_cancel_left h1)
    exact ⟨rfl, List.append_cancel_left h2⟩
  case emptyChunk.emptyChunk =>
    obtain ⟨rfl, h1⟩ := showNat_cancel (delimited_of _ _ (by decide +kernel)) (delimited_of _ _ (by decide +kernel)) (List.append_cancel_left h)
    exact ⟨rfl, List.append_cancel_left h1⟩
  case chunkParseError.chunkParseError =>
    obtain ⟨rfl, h1⟩ := showNat_cancel (delimited_of _ _ (by decide +kernel)) (delimited_of _ _ (by decide +kernel)) (List.append_cancel_left h)
    obtain ⟨rfl, h2⟩ := quoteStr_cancel (List.append_cancel_left h1)
    obtain ⟨rfl, h3⟩ := intErrDebug_cancel (List.append_cancel_left h2)
    exact ⟨rfl, List.append_cancel_left h3⟩
  case chunkOutOfRange.chunkOutOfRange =>
    obtain ⟨rfl, h1⟩ := showNat_cancel (delimited_of _ _ (by decide +kernel)) (delimited_of _ _ (by decide +kernel)) (List.append_cancel_left h)
    obtain ⟨rfl, h2⟩ := showNat_cancel (delimited_of _ _ (by decide +kernel)) (delimited_of _ _ (by decide +kernel)) (List.append_cancel_left h1)
    obtain ⟨rfl, h3⟩ := showNat_cancel (delimited_of _ _ (by decide +kernel)) (delimited_of _ _ (by decide +kernel)) (List.append_cancel_left h2)
    obtain ⟨rfl, h4⟩ := showNat_cancel (delimited_of _ _ (by decide +kernel)) (delimited_of _ _ (by decide +kernel)) (List.append_cancel_left h3)
    exact ⟨rfl, List.append_cancel_left h4⟩

theorem netspecErrText_cancel {u u' : CharTable} {e e' : NetspecErr} {r r' : Str}
    (h : netspecErrText u e ++ r = netspecErrText u' e' ++ r') : e = e' ∧ r = r' := by
  cases e <;> cases e' <;> simp only [netspecErrText, List.append_assoc] at h <;>
    first | exact absurd (lit_prefix h) (by decide +kernel) | skip
  case unrecognized.unrecognized =>
    obtain ⟨rfl, h1⟩ := quoteStr_cancel (List.append_cancel_left h)
    exact ⟨rfl, h1⟩
  case address.address =>
    obtain ⟨rfl, h1⟩ := addrErrDebug_cancel (List.append_cancel_left h)
    exact ⟨rfl, h1⟩
  case mask.mask =>
    obtain ⟨rfl, h1⟩ := addrErrDebug_cancel (List.append_cancel_left h)
    exact ⟨rfl, h1⟩
  case cidrParse.cidrParse =>
    obtain ⟨rfl, h1⟩ := intErrDebug_cancel (List.append_cancel_left h)
    exact ⟨rfl, h1⟩
  case cidrRange.cidrRange =>
    obtain ⟨rfl, h1⟩ := showNat_cancel (delimited_of _ _ (by decide +kernel)) (delimited_of _ _ (by decide +kernel)) (List.append_cancel_left h)
    obtain ⟨rfl, h2⟩ := showNat_cancel (delimited_of _ _ (by decide +kernel)) (delimited_of _ _ (by decide +kernel)) (List.append_cancel_left h1)
    exact ⟨rfl, List.append_cancel_left h2⟩

theorem usage_text (u : CharTable) : ∃ r, (ErrMsg.usage).text u = chars! "Usage: " ++ r := ⟨_, rfl⟩

theorem text_of_lines {u : CharTable} {m : ErrMsg} {body : Str} (h : m.lines u = [body]) : m.text u = body ++ ['\n'] := by
  rw [ErrMsg.text, h]; simp

/-- The text of a message, with the usage text cut after its first word. -/
theorem text_cases (u : CharTable) (m : ErrMsg) : ∃ r, m.text u = (match m with
    | .usage => chars! "Usage: " ++ r
    | m => (m.lines u).headD [] ++ ['\n']) := by
  cases m
  case usage => exact usage_text u
  all_goals exact ⟨[], text_of_lines rfl⟩

theorem newline_delimited : Delimited ['\n'] := by
  intro c hc; cases hc; decide

/-- How the text of a network error begins. -/
def netspecBeginnings : List Str :=
  [chars! "unrecognized network specification: ", chars! "failed to parse address: ", chars! "failed to parse mask: ",
   chars! "failed to parse CIDR prefix: ", chars! "CIDR prefix "]

theorem netspec_prefix {u : CharTable} {e : NetspecErr} {r p r' : Str} (h : netspecErrText u e ++ r = p ++ r') :
    ∃ q ∈ netspecBeginnings, q.take (min q.length p.length) = p.take (min q.length p.length) := by
  cases e <;> simp only [netspecErrText, List.append_assoc] at h <;>
    exact ⟨_, by simp [netspecBeginnings], lit_prefix h⟩

theorem quote_prefix {u : CharTable} {s p r q r' : Str} (h : p ++ (quoteStr u s ++ r) = q ++ r') :
    (p ++ ['"']).take (min (p ++ ['"']).length q.length) = q.take (min (p ++ ['"']).length q.length) := by
  rw [quoteStr, List.append_assoc, List.append_assoc, ← List.append_assoc p] at h
  exact lit_prefix h

set_option maxHeartbeats 1000000 in
theorem text_inj {u u' : CharTable} {m m' : ErrMsg} (h : m.text u = m'.text u') : m = m' := by
  obtain ⟨r, hr⟩ := text_cases u m
  obtain ⟨r', hr'⟩ := text_cases u' m'
  rw [hr, hr'] at h
  clear hr hr'
  cases m <;> cases m' <;> simp only [ErrMsg.lines, List.headD_cons, List.append_assoc] at h <;>
    first | rfl | exact absurd (lit_prefix h) (by decide) | skip
  case showParse.showParse => rw [(netspecErrText_cancel h).1]
  case minimizeParse.minimizeParse => rw [(netspecErrText_cancel (List.append_cancel_left h)).1]
  case derangeFirst.derangeFirst =>
    rw [(addrErrText_cancel newline_delimited newline_delimited (List.append_cancel_left h)).1]
  case derangeSecond.derangeSecond =>
    rw [(addrErrText_cancel newline_delimited newline_delimited (List.append_cancel_left h)).1]
  case resizeNet.resizeNet =>
    obtain ⟨h1, h2⟩ := quoteStr_cancel (List.append_cancel_left h)
    rw [h1, (netspecErrText_cancel (List.append_cancel_left h2)).1]
  case resizeSubnet.resizeSubnet =>
    obtain ⟨h1, h2⟩ := quoteStr_cancel (List.append_cancel_left h)
    rw [h1, (netspecErrText_cancel (List.append_cancel_left h2)).1]
  case splitNet.splitNet =>
    obtain ⟨h1, h2⟩ := quoteStr_cancel (List.append_cancel_left h)
    rw [h1, (netspecErrText_cancel (List.append_cancel_left h2)).1]
  case enumerateNet.enumerateNet =>
    obtain ⟨h1, h2⟩ := quoteStr_cancel (List.append_cancel_left h)
    rw [h1, (netspecErrText_cancel (List.append_cancel_left h2)).1]
  case splitCount.splitCount => rw [(quoteStr_cancel (List.append_cancel_left h)).1]
  case resizeRangeV4.resizeRangeV4 =>
    rw [(showNat_cancel (delimited_of _ _ (by decide)) (delimited_of _ _ (by decide)) (List.append_cancel_left h)).1]
  case resizeRangeV6.resizeRangeV6 =>
    rw [(showNat_cancel (delimited_of _ _ (by decide)) (delimited_of _ _ (by decide)) (List.append_cancel_left h)).1]
  case resizeRangeV4.resizeRangeV6 =>
    have h2 := (showNat_cancel (delimited_of _ _ (by decide)) (delimited_of _ _ (by decide)) (List.append_cancel_left h)).2
    exact absurd (lit_prefix h2) (by decide)
  case resizeRangeV6.resizeRangeV4 =>
    have h2 := (showNat_cancel (delimited_of _ _ (by decide)) (delimited_of _ _ (by decide)) (List.append_cancel_left h)).2
    exact absurd (lit_prefix h2) (by decide)
  all_goals first
    | exact absurd (netspec_prefix h) (by decide)
    | exact absurd (netspec_prefix h.symm) (by decide)
    | exact absurd (quote_prefix h) (by decide)
    | exact absurd (quote_prefix h.symm) (by decide)

end Ripcalc
