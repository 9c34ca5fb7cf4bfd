import Verif.Proofs.Errors
/-!
# Which error is reported

C70 numbers and IPv4 address texts, C71 IPv6 address texts, C72 network texts, C73 the other parsers.
-/
namespace Ripcalc
open AddrSpec

/-! ## C70: numbers and IPv4 addresses -/

/-- The number parser fails with the fault of the text. -/
theorem C70_number_error (radix max : Nat) (h0 : 0 < radix) (h16 : radix ≤ 16) (s : Str) (e : IntErr) :
    parseUnsigned radix max s = .error e ↔ NumberFault radix max s e := parseUnsigned_error h0 h16 s e

/-- Every text is a number that fits or has exactly one fault. -/
theorem C70_number_total (radix max : Nat) (h0 : 0 < radix) (h16 : radix ≤ 16) (s : Str) :
    (∃ v, PlusNumeral radix s v ∧ v ≤ max ∧ ∀ e, ¬ NumberFault radix max s e) ∨
    (∃ e, NumberFault radix max s e ∧ (∀ e', NumberFault radix max s e' → e' = e) ∧
      ∀ v, PlusNumeral radix s v → max < v) := by
  simp only [← parseUnsigned_error h0 h16]
  cases h : parseUnsigned radix max s with
  | ok v =>
    have := (parseUnsigned_iff h0 h16 s v).mp h
    exact .inl ⟨v, this.1, this.2, by simp⟩
  | error e =>
    refine .inr ⟨e, rfl, by simp [eq_comm], fun v hv => ?_⟩
    rcases Nat.lt_or_ge max v with hlt | hge
    · exact hlt
    · rw [(parseUnsigned_iff h0 h16 s v).mpr ⟨hv, hge⟩] at h; cases h

/-- A digit text that is too large overflows; it never has an invalid digit. -/
theorem C70_digits_overflow (s : Str) (v : Nat) (h : PlusNumeral 10 s v) (max : Nat) (hm : max < v) :
    parseUnsigned 10 max s = .error .posOverflow := by
  have hne : ∀ w, parseUnsigned 10 max s ≠ .ok w := by
    intro w hw
    have := (parseUnsigned_iff (by decide) (by decide) s w).mp hw
    have := h.unique this.1
    omega
  have hall : ∀ {t : Str} {ds}, Digits 10 t ds → ∀ c ∈ t, ∃ d, DigitIs c d ∧ d < 10 := by
    intro t ds hd
    induction hd with
    | nil => simp
    | cons h1 h2 _ ih =>
      intro c hc
      rcases List.mem_cons.mp hc with rfl | hc
      · exact ⟨_, h1, h2⟩
      · exact ih c hc
  cases hp : parseUnsigned 10 max s with
  | ok w => exact absurd hp (hne w)
  | error e =>
    have hf := (parseUnsigned_error (by decide) (by decide) s e).mp hp
    cases e with
    | posOverflow => rfl
    | empty => exact absurd hf h.chars.1
    | invalidDigit =>
      obtain ⟨pre, c, post, ds, hb, -, -, hc⟩ := hf
      have bad : ∀ {t : Str} {es}, Digits 10 t es → c ∈ t → False := by
        intro t es ht hm
        obtain ⟨d, h1, h2⟩ := hall ht c hm
        have := hc d h1
        omega
      have hcb : c ∈ pre ++ c :: post := by simp
      rcases h with ⟨-, es, hes, -⟩ | ⟨t, rfl, hne, es, hes, -⟩
      · rcases hb with ⟨-, rfl⟩ | ⟨hb, -⟩
        · exact (bad hes (List.mem_cons_of_mem _ hcb)).elim
        · exact (bad hes (hb ▸ hcb)).elim
      · rcases hb with ⟨-, hb⟩ | ⟨-, hb⟩
        · cases hb; exact (bad hes hcb).elim
        · exact absurd rfl (hb t hne)

/-- The IPv4 parser fails with the fault of the text. -/
theorem C70_ipv4_error (s : Str) (e : AddrErr) : V4.parse s = .error e ↔ V4Fault s e := V4.parse_error s e

/-- Every text is an IPv4 address or has exactly one fault. -/
theorem C70_ipv4_total (s : Str) :
    (∃ a, V4Reading s a ∧ V4.parse s = .ok a ∧ ∀ e, ¬ V4Fault s e) ∨
    (∃ e, V4Fault s e ∧ V4.parse s = .error e ∧ (∀ e', V4Fault s e' → e' = e) ∧ ∀ a, ¬ V4Reading s a) := by
  rcases v4_cases s with ⟨a, h1, h2, h3⟩ | ⟨e, h1, h2, h3, h4⟩
  · exact .inl ⟨a, h2, h1, h3⟩
  · exact .inr ⟨e, h2, h1, h3, h4⟩

example : V4Fault "10.256.0.1".toList (.chunkOutOfRange 1 256 0 255) :=
  (C70_ipv4_error _ _).mp (by decide +kernel)
example : V4Fault "10..0.1".toList (.emptyChunk 1) := (C70_ipv4_error _ _).mp (by decide +kernel)
example : V4Fault "10.0.0".toList (.incorrectChunkCount 3 4) := (C70_ipv4_error _ _).mp (by decide +kernel)
example : V4Fault "10.0.x.y".toList (.chunkParseError 2 "x".toList .invalidDigit) :=
  (C70_ipv4_error _ _).mp (by decide +kernel)
/-- The overflow comes before the invalid digit. -/
example : NumberFault 10 (2 ^ 32 - 1) "+4294967296x".toList .posOverflow :=
  (C70_number_error 10 _ (by decide) (by decide) _ _).mp (by decide +kernel)
example : PlusNumeral 10 "4294967296".toList 4294967296 :=
  ((parseUnsigned_iff (max := 2 ^ 64) (by decide) (by decide) _ _).mp (by decide +kernel)).1

/-! ## C71: IPv6 addresses -/

/-- The IPv6 parser fails with the fault of the text. -/
theorem C71_ipv6_error (s : Str) (e : AddrErr) : V6.parse s = .ok (.error e) ↔ V6Fault s e := V6.parse_error s e

/-- Every text is an IPv6 address or has exactly one fault. -/
theorem C71_ipv6_total (s : Str) :
    (∃ a, V6Reading s a ∧ V6.parse s = .ok (.ok a) ∧ ∀ e, ¬ V6Fault s e) ∨
    (∃ e, V6Fault s e ∧ V6.parse s = .ok (.error e) ∧ (∀ e', V6Fault s e' → e' = e) ∧ ∀ a, ¬ V6Reading s a) := by
  rcases v6_cases s with ⟨a, h1, h2, h3⟩ | ⟨e, h1, h2, h3, h4⟩
  · exact .inl ⟨a, h2, h1, h3⟩
  · exact .inr ⟨e, h2, h1, h3, h4⟩

example : V6Fault "1::2::3".toList (.tooManyShorteningElements 2 1) := (C71_ipv6_error _ _).mp (by decide +kernel)
example : V6Fault "1:2".toList (.incorrectChunkCount 2 8) := (C71_ipv6_error _ _).mp (by decide +kernel)
/-- The index counts the filled groups. -/
example : V6Fault "1::g".toList (.chunkParseError 7 "g".toList .invalidDigit) := (C71_ipv6_error _ _).mp (by decide +kernel)
example : V6Fault "1::10000".toList (.chunkParseError 7 "10000".toList .posOverflow) := (C71_ipv6_error _ _).mp (by decide +kernel)

/-! ## C72: network texts -/

/-- The network parser fails with the fault of the text. -/
theorem C72_netspec_error (s : Str) (e : NetspecErr) : parseNetspec s = .ok (.error e) ↔ NetspecFault s e :=
  parseNetspec_error s e

/-- Every text is a network or has exactly one fault. -/
theorem C72_netspec_total (s : Str) :
    (∃ x, parseNetspec s = .ok (.ok x) ∧ ∀ e, ¬ NetspecFault s e) ∨
    (∃ e, NetspecFault s e ∧ parseNetspec s = .ok (.error e) ∧ ∀ e', NetspecFault s e' → e' = e) := by
  simp only [← parseNetspec_error]
  obtain ⟨r, hr⟩ := parseNetspec_total s
  rw [hr]
  cases r with
  | ok x => exact .inl ⟨x, rfl, by simp⟩
  | error e => exact .inr ⟨e, rfl, rfl, by simp [eq_comm]⟩

/-- The prefix of a network text is never reported as malformed, only as too large for the number type. -/
theorem C72_prefix_overflow (s : Str) (f : IntErr) (h : parseNetspec s = .ok (.error (.cidrParse f))) : f = .posOverflow := by
  have key : ∀ l, DigitText l → NumberFault 10 (2 ^ 64 - 1) l f → f = .posOverflow := by
    intro l hl hn
    obtain ⟨v, hv⟩ := digitText_numeral hl
    have hp := (parseUnsigned_error (by decide) (by decide) l f).mpr hn
    rcases Nat.lt_or_ge (2 ^ 64 - 1) v with hlt | hge
    · rw [C70_digits_overflow l v (.inl hv) _ hlt] at hp; cases hp; rfl
    · rw [(parseUnsigned_iff (by decide) (by decide) l v).mpr ⟨.inl hv, hge⟩] at hp; cases hp
  rcases (parseNetspec_error s _).mp h with ⟨h, -⟩ | ⟨t, w, l, -, -, -, -, hd, hn⟩ | ⟨t, w, l, -, -, -, -, hd, hn⟩
  · cases h
  · exact key l hd hn
  · exact key l hd hn

example : NetspecFault "10.0.0.1".toList (.unrecognized "10.0.0.1".toList) := (C72_netspec_error _ _).mp (by decide +kernel)
example : NetspecFault "10.0.0.256/x".toList (.unrecognized "10.0.0.256/x".toList) := (C72_netspec_error _ _).mp (by decide +kernel)
example : NetspecFault "10.0.0.256/33".toList (.address (.chunkOutOfRange 3 256 0 255)) :=
  (C72_netspec_error _ _).mp (by decide +kernel)
example : NetspecFault "10.0.0.1/-33".toList (.cidrRange 33 32) := (C72_netspec_error _ _).mp (by decide +kernel)
example : NetspecFault "10.0.0.1/255.255.0.300".toList (.mask (.chunkOutOfRange 3 300 0 255)) :=
  (C72_netspec_error _ _).mp (by decide +kernel)
example : NetspecFault "::1/18446744073709551616".toList (.cidrParse .posOverflow) := (C72_netspec_error _ _).mp (by decide +kernel)

/-! ## C73: single addresses, masks and prefixes -/

/-- The errors of the address parser. -/
theorem C73_addr_error (s : Str) (e : AddrErr) : parseAddr s = .ok (.error e) ↔
    (('.' ∈ s ↔ ':' ∈ s) ∧ e = .unknownAddressType) ∨ ('.' ∈ s ∧ ':' ∉ s ∧ V4Fault s e) ∨
    (':' ∈ s ∧ '.' ∉ s ∧ V6Fault s e) := parseAddr_error s e

/-- The errors of the mask parser. -/
theorem C73_subnet_error (s : Str) (e : NetspecErr) : parseSubnet s = .ok (.error e) ↔
    (∃ f, e = .mask f ∧ ((':' ∈ s ∧ V6Fault s f) ∨ (':' ∉ s ∧ '.' ∈ s ∧ V4Fault s f))) ∨
    (∃ f, e = .cidrParse f ∧ ':' ∉ s ∧ '.' ∉ s ∧ NumberFault 10 (2 ^ 64 - 1) s f) := parseSubnet_error s e

/-- A list of network texts is rejected with the fault of the first text that is no network, if the networks before it are of
one family. -/
theorem C73_list_error (ss : List Str) (e : NetspecErr) : parseSameFamilyNetspecs ss = .ok (.error e) ↔
    ∃ pre x post, ss = pre ++ x :: post ∧ NetspecFault x e ∧
      ((∀ y ∈ pre, ∃ a n, parseNetspec y = .ok (.ok (.ipv4 a n))) ∨ (∀ y ∈ pre, ∃ a n, parseNetspec y = .ok (.ok (.ipv6 a n)))) := by
  have l4 : ∀ (ss : List Str) acc, sameFamilyLoop4 acc ss = .ok (.error e) ↔ ∃ pre x post, ss = pre ++ x :: post ∧
      NetspecFault x e ∧ ∀ y ∈ pre, ∃ a n, parseNetspec y = .ok (.ok (.ipv4 a n)) := by
    intro ss
    induction ss with
    | nil => intro acc; exact ⟨fun h => (by cases h), fun ⟨pre, x, post, h, _⟩ => (by simp at h)⟩
    | cons s rest ih =>
      intro acc
      rw [sameFamilyLoop4]
      obtain ⟨r, hr⟩ := parseNetspec_total s
      rw [hr, Exec.ok_bind]
      cases r with
      | error e' =>
        constructor
        · intro h; cases h; exact ⟨[], s, rest, rfl, (parseNetspec_error _ _).mp hr, by simp⟩
        · rintro ⟨pre, x, post, h1, h2, h3⟩
          cases pre with
          | nil => cases h1; rw [← parseNetspec_error, hr] at h2; cases h2; rfl
          | cons p pre => cases h1; obtain ⟨a, n, h⟩ := h3 s (by simp); rw [hr] at h; cases h
      | ok x =>
        cases x with
        | ipv4 a n =>
          simp only
          rw [ih]
          constructor
          · rintro ⟨pre, x, post, rfl, h2, h3⟩
            refine ⟨s :: pre, x, post, rfl, h2, fun y hy => ?_⟩
            rcases List.mem_cons.mp hy with rfl | hy
            · exact ⟨a, n, hr⟩
            · exact h3 y hy
          · rintro ⟨pre, x, post, h1, h2, h3⟩
            cases pre with
            | nil => cases h1; rw [← parseNetspec_error, hr] at h2; cases h2
            | cons p pre => cases h1; exact ⟨pre, x, post, rfl, h2, fun y hy => h3 y (by simp [hy])⟩
        | ipv6 a n =>
          constructor
          · intro h; cases h
          · rintro ⟨pre, x, post, h1, h2, h3⟩
            cases pre with
            | nil => cases h1; rw [← parseNetspec_error, hr] at h2; cases h2
            | cons p pre => cases h1; obtain ⟨a, n, h⟩ := h3 s (by simp); rw [hr] at h; cases h
  have l6 : ∀ (ss : List Str) acc, sameFamilyLoop6 acc ss = .ok (.error e) ↔ ∃ pre x post, ss = pre ++ x :: post ∧
      NetspecFault x e ∧ ∀ y ∈ pre, ∃ a n, parseNetspec y = .ok (.ok (.ipv6 a n)) := by
    intro ss
    induction ss with
    | nil => intro acc; exact ⟨fun h => (by cases h), fun ⟨pre, x, post, h, _⟩ => (by simp at h)⟩
    | cons s rest ih =>
      intro acc
      rw [sameFamilyLoop6]
      obtain ⟨r, hr⟩ := parseNetspec_total s
      rw [hr, Exec.ok_bind]
      cases r with
      | error e' =>
        constructor
        · intro h; cases h; exact ⟨[], s, rest, rfl, (parseNetspec_error _ _).mp hr, by simp⟩
        · rintro ⟨pre, x, post, h1, h2, h3⟩
          cases pre with
          | nil => cases h1; rw [← parseNetspec_error, hr] at h2; cases h2; rfl
          | cons p pre => cases h1; obtain ⟨a, n, h⟩ := h3 s (by simp); rw [hr] at h; cases h
      | ok x =>
        cases x with
        | ipv6 a n =>
          simp only
          rw [ih]
          constructor
          · rintro ⟨pre, x, post, rfl, h2, h3⟩
            refine ⟨s :: pre, x, post, rfl, h2, fun y hy => ?_⟩
            rcases List.mem_cons.mp hy with rfl | hy
            · exact ⟨a, n, hr⟩
            · exact h3 y hy
          · rintro ⟨pre, x, post, h1, h2, h3⟩
            cases pre with
            | nil => cases h1; rw [← parseNetspec_error, hr] at h2; cases h2
            | cons p pre => cases h1; exact ⟨pre, x, post, rfl, h2, fun y hy => h3 y (by simp [hy])⟩
        | ipv4 a n =>
          constructor
          · intro h; cases h
          · rintro ⟨pre, x, post, h1, h2, h3⟩
            cases pre with
            | nil => cases h1; rw [← parseNetspec_error, hr] at h2; cases h2
            | cons p pre => cases h1; obtain ⟨a, n, h⟩ := h3 s (by simp); rw [hr] at h; cases h
  cases ss with
  | nil => exact ⟨fun h => (by cases h), fun ⟨pre, x, post, h, _⟩ => (by simp at h)⟩
  | cons s rest =>
    rw [parseSameFamilyNetspecs]
    obtain ⟨r, hr⟩ := parseNetspec_total s
    rw [hr, Exec.ok_bind]
    cases r with
    | error e' =>
      constructor
      · intro h; cases h; exact ⟨[], s, rest, rfl, (parseNetspec_error _ _).mp hr, .inl (by simp)⟩
      · rintro ⟨pre, x, post, h1, h2, h3⟩
        cases pre with
        | nil => cases h1; rw [← parseNetspec_error, hr] at h2; cases h2; rfl
        | cons p pre =>
          cases h1
          rcases h3 with h3 | h3
          all_goals obtain ⟨a, n, h⟩ := h3 s (by simp); rw [hr] at h; cases h
    | ok x =>
      cases x with
      | ipv4 a n =>
        simp only
        rw [l4]
        constructor
        · rintro ⟨pre, x, post, rfl, h2, h3⟩
          refine ⟨s :: pre, x, post, rfl, h2, .inl fun y hy => ?_⟩
          rcases List.mem_cons.mp hy with rfl | hy
          · exact ⟨a, n, hr⟩
          · exact h3 y hy
        · rintro ⟨pre, x, post, h1, h2, h3⟩
          cases pre with
          | nil => cases h1; rw [← parseNetspec_error, hr] at h2; cases h2
          | cons p pre =>
            cases h1
            rcases h3 with h3 | h3
            · exact ⟨pre, x, post, rfl, h2, fun y hy => h3 y (by simp [hy])⟩
            · obtain ⟨a, n, h⟩ := h3 s (by simp); rw [hr] at h; cases h
      | ipv6 a n =>
        simp only
        rw [l6]
        constructor
        · rintro ⟨pre, x, post, rfl, h2, h3⟩
          refine ⟨s :: pre, x, post, rfl, h2, .inr fun y hy => ?_⟩
          rcases List.mem_cons.mp hy with rfl | hy
          · exact ⟨a, n, hr⟩
          · exact h3 y hy
        · rintro ⟨pre, x, post, h1, h2, h3⟩
          cases pre with
          | nil => cases h1; rw [← parseNetspec_error, hr] at h2; cases h2
          | cons p pre =>
            cases h1
            rcases h3 with h3 | h3
            · obtain ⟨a, n, h⟩ := h3 s (by simp); rw [hr] at h; cases h
            · exact ⟨pre, x, post, rfl, h2, fun y hy => h3 y (by simp [hy])⟩

example : parseAddr "1.2.3".toList = .ok (.error (.incorrectChunkCount 3 4)) ∧
    parseAddr "12".toList = .ok (.error .unknownAddressType) ∧
    parseSubnet "+".toList = .ok (.error (.cidrParse .invalidDigit)) ∧
    parseSubnet "".toList = .ok (.error (.cidrParse .empty)) := by decide +kernel
example : parseSameFamilyNetspecs ["10.0.0.1/8".toList, "10.0.0.1".toList, "::1/8".toList] =
    .ok (.error (.unrecognized "10.0.0.1".toList)) := by decide +kernel

end Ripcalc
