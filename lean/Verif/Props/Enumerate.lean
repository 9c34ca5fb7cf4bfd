import Verif.Proofs.Enumerate
import Verif.Proofs.Parse
import Verif.Props.Parse
/-!
# Properties C37 and C38: enumeration
-/
set_option linter.unusedSectionVars false
namespace Ripcalc
open AddrSpec LawfulIpAddr

section generic
variable {A : Type} [IpAddr A] [AddrSpec A] [LawfulIpAddr A]

/-! ## C37: enumeration lists each member once in ascending order -/

/-- For any number `c` of calls of `next`: the members in order, then `None` for ever. -/
theorem C37_iterator (pr : Profile) (n : Net A) (hn : WF n) :
    ∃ (it : NetworkIter A) (xs : List A), NetworkIter.new n = .ok it ∧ (∀ a, a ∈ xs ↔ Member n a) ∧ xs.Pairwise (fun a b => val a < val b) ∧
      xs.length = n.addressCount ∧ ∀ c, it.nexts pr c = .ok ((xs.map some ++ List.replicate c none).take c) := by
  obtain ⟨it, h1, h2⟩ := iter_new hn.hz
  have hl := memberList_listing n
  exact ⟨it, memberList n, h1, hl.1, hl.2, by rw [memberList_length, addressCount_eq], fun c => by
    rw [nexts_spec pr c h2, List.drop_zero]⟩

/-- The loop over the iterator ends and yields the same list; no panic. -/
theorem C37_enumerate (pr : Profile) (n : Net A) (hn : WF n) :
    ∃ xs, enumerateNet pr n = .ok xs ∧ (∀ a, a ∈ xs ↔ Member n a) ∧ xs.Pairwise (fun a b => val a < val b) ∧
      xs.length = n.addressCount :=
  ⟨memberList n, enumerateNet_spec pr hn.hz, (memberList_listing n).1, (memberList_listing n).2,
    by rw [memberList_length, addressCount_eq]⟩

/-- A network with a lopsided mask meets the hypothesis, and its four members come in order. -/
example : WF (Net.newWithMask (⟨0x0A000001#32⟩ : V4) ⟨0xFFFFFEFD#32⟩) ∧
    (NetworkIter.new (Net.newWithMask (⟨0x0A000001#32⟩ : V4) ⟨0xFFFFFEFD#32⟩) >>= (·.nexts .checked 5)) =
    .ok [some ⟨0x0A000001#32⟩, some ⟨0x0A000003#32⟩, some ⟨0x0A000101#32⟩, some ⟨0x0A000103#32⟩, none] :=
  ⟨newWithMask_wf _ _, by decide +kernel⟩

/-- At the top of the address space. -/
example : ((NetworkIter.mk false (⟨0xFFFFFFFE#32⟩ : V4) ⟨0xFFFFFFFF#32⟩ ⟨0xFFFFFFFE#32⟩).nexts .checked 4) =
    .ok [some ⟨0xFFFFFFFE#32⟩, some ⟨0xFFFFFFFF#32⟩, none, none] := by decide +kernel

end generic

/-! ## C38: enumerate processes every argument -/

/-- What `--enumerate` writes for one argument. -/
def ArgOutput (s : Str) (evs : List OutEv) : Prop :=
  (∃ e, parseNetspec s = .ok (.error e) ∧ evs = [.err (.enumerateNet s e)]) ∨
  (∃ a n xs, parseNetspec s = .ok (.ok (.ipv4 a n)) ∧ Listing n xs ∧ evs = xs.map (fun x => .out (IpAddr.display x ++ ['\n']))) ∨
  (∃ a n xs, parseNetspec s = .ok (.ok (.ipv6 a n)) ∧ Listing n xs ∧ evs = xs.map (fun x => .out (IpAddr.display x ++ ['\n'])))

theorem enumerate_listing {A : Type} [IpAddr A] [AddrSpec A] [LawfulIpAddr A] (pr : Profile) (n : Net A) (hn : WF n) :
    ∃ xs, enumerateNet pr n = .ok xs ∧ Listing n xs := by
  obtain ⟨xs, h1, h2, h3, -⟩ := C37_enumerate pr n hn
  exact ⟨xs, h1, h2, h3⟩

theorem enumerateLoop_spec (rt : Runtime) (ss : List Str) (ret : Nat) :
    ∃ evss code, Pointwise ArgOutput ss evss ∧ enumerateLoop rt ret ss = ⟨evss.flatten, .ok code⟩ ∧
      ((∃ s ∈ ss, ∃ e, parseNetspec s = .ok (.error e)) → code = 1) ∧
      ((¬ ∃ s ∈ ss, ∃ e, parseNetspec s = .ok (.error e)) → code = ret) := by
  induction ss generalizing ret with
  | nil => exact ⟨[], ret, .nil, rfl, by simp, by simp⟩
  | cons s ss ih =>
    obtain ⟨r, hr⟩ := parseNetspec_total s
    rw [enumerateLoop, hr, Cli.lift_ok_bind]
    cases r with
    | error e =>
      obtain ⟨evss, code, h1, h2, h3, h4⟩ := ih 1
      refine ⟨[.err (.enumerateNet s e)] :: evss, code, .cons (.inl ⟨e, hr, rfl⟩) h1, by simp [h2], fun _ => ?_, ?_⟩
      · by_cases h : ∃ s ∈ ss, ∃ e, parseNetspec s = .ok (.error e)
        · exact h3 h
        · exact h4 h
      · intro h; exact absurd ⟨s, by simp, e, hr⟩ h
    | ok x =>
      have hgood := C33_parsed_good s x hr
      have hno : ¬ ∃ e, parseNetspec s = .ok (.error e) := by rintro ⟨e, he⟩; rw [hr] at he; cases he
      obtain ⟨evss, code, h1, h2, h3, h4⟩ := ih ret
      have h3' : (∃ t ∈ s :: ss, ∃ e, parseNetspec t = .ok (.error e)) → code = 1 := by
        rintro ⟨t, ht, he⟩
        rcases List.mem_cons.mp ht with rfl | ht
        · exact absurd he hno
        · exact h3 ⟨t, ht, he⟩
      have h4' : (¬ ∃ t ∈ s :: ss, ∃ e, parseNetspec t = .ok (.error e)) → code = ret := by
        intro h
        exact h4 fun ⟨t, ht, he⟩ => h ⟨t, List.mem_cons_of_mem _ ht, he⟩
      cases x with
      | ipv4 a n =>
        obtain ⟨xs, hx, hl⟩ := enumerate_listing rt.profile n hgood.2.1
        refine ⟨_ :: evss, code, .cons (.inr (.inl ⟨a, n, xs, hr, hl, rfl⟩)) h1, ?_, h3', h4'⟩
        simp only [printNet_eq hx, Cli.mk_ok_bind, h2, List.flatten_cons]
      | ipv6 a n =>
        obtain ⟨xs, hx, hl⟩ := enumerate_listing rt.profile n hgood.2.1
        refine ⟨_ :: evss, code, .cons (.inr (.inr ⟨a, n, xs, hr, hl, rfl⟩)) h1, ?_, h3', h4'⟩
        simp only [printNet_eq hx, Cli.mk_ok_bind, h2, List.flatten_cons]

theorem C38_enumerate (rt : Runtime) (args : List Str) (hlen : 3 ≤ args.length) :
    ∃ evss code, Pointwise ArgOutput (args.drop 2) evss ∧ enumerate rt args = ⟨evss.flatten, .ok code⟩ ∧
      ((∃ s ∈ args.drop 2, ∃ e, parseNetspec s = .ok (.error e)) → code = 1) ∧
      ((∀ s ∈ args.drop 2, ∃ x, parseNetspec s = .ok (.ok x)) → code = 0) := by
  obtain ⟨evss, code, h1, h2, h3, h4⟩ := enumerateLoop_spec rt (args.drop 2) 0
  refine ⟨evss, code, h1, ?_, h3, fun h => h4 ?_⟩
  · rw [enumerate, if_neg (by omega)]; exact h2
  · rintro ⟨s, hs, e, he⟩
    obtain ⟨x, hx⟩ := h s hs
    rw [he] at hx; cases hx

/-- The description determines the output for each argument. -/
theorem C38_output_unique (s : Str) (evs evs' : List OutEv) (h : ArgOutput s evs) (h' : ArgOutput s evs') : evs = evs' := by
  rcases h with ⟨e, h1, rfl⟩ | ⟨a, n, xs, h1, h2, rfl⟩ | ⟨a, n, xs, h1, h2, rfl⟩ <;>
  rcases h' with ⟨e, h1', rfl⟩ | ⟨a, n, xs', h1', h2', rfl⟩ | ⟨a, n, xs', h1', h2', rfl⟩ <;>
  rw [h1] at h1' <;> cases h1'
  · rfl
  · rw [h2.unique h2']
  · rw [h2.unique h2']

theorem C38_usage (rt : Runtime) (args : List Str) (hlen : args.length < 3) : enumerate rt args = ⟨[.err .usage], .ok 1⟩ := by
  rw [enumerate, if_pos hlen]; rfl

example : parseNetspec "1.2.3.4/31".toList ≠ .ok (.error (.unrecognized [])) ∧
    (∃ e, parseNetspec "bad".toList = .ok (.error e)) := ⟨by decide +kernel, ⟨.unrecognized "bad".toList, by decide +kernel⟩⟩

end Ripcalc
