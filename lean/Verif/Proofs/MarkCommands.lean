import Verif.Proofs.MarkBlocks
import Verif.Props.Splitting
import Verif.Props.Panics
/-!
# Lemmas about the commands that display networks, mark by mark
-/
set_option linter.unusedSectionVars false
namespace Ripcalc
open AddrSpec LawfulIpAddr

/-! ## Plain text -/

theorem AllPlain.nil : AllPlain [] := fun e he => by cases he
theorem AllPlain.append {l l' : List OutEv} (h : AllPlain l) (h' : AllPlain l') : AllPlain (l ++ l') := fun e he =>
  (List.mem_append.mp he).elim (h e) (h' e)
theorem AllPlain.out (s : Str) : AllPlain [.out s] := fun e he c t h => by
  rw [List.mem_singleton.mp he] at h; cases h

theorem AllPlain.bind {x : Cli α} {f : α → Cli β} (h : AllPlain x.out) (h' : ∀ a, AllPlain (f a).out) : AllPlain (x >>= f).out := by
  obtain ⟨o, r⟩ := x
  cases r with
  | ok a => rw [Cli.mk_ok_bind]; exact h.append (h' a)
  | panic p => exact h
  | diverge => exact h

theorem AllPlain.lift (x : Exec α) : AllPlain (liftM x : Cli α).out := .nil
theorem AllPlain.println (s : Str) : AllPlain (Cli.println s).out := .out _

theorem plain_printNets {A : Type} [IpAddr A] (ns : List (Net A)) : AllPlain (printNets ns).out := by
  induction ns with
  | nil => exact .nil
  | cons n ns ih => exact .bind (.println _) fun _ => ih

theorem views_plain {x : Cli α} {a : α} {t : Str} (hp : AllPlain x.out) (h : Shows x a t) : Views x a (plainly t) :=
  ⟨h.1, by rw [hp.marks, h.2.1], h.2.2⟩

theorem of_views {x : Cli Nat} {c : Nat} {t : List Mark} (h : Views x c t) : Outcome.of x = ⟨t, [], .status c⟩ := by
  obtain ⟨h1, h2, h3⟩ := h
  rw [Outcome.of, h1, h2, h3]

/-! ## Paragraphs -/

theorem paragraphs_cons (h : Str) (t : List Mark) (ps : List (Str × List Mark)) :
    paragraphs ((h, t) :: ps) = plainly (h ++ ":\n".toList) ++ t ++ plainly ['\n'] ++ paragraphs ps := by
  rw [paragraphs, List.flatMap_cons, ← paragraphs]

theorem views_paragraph {on : Cli Unit} {k : Cli β} {b : β} {t : List Mark} (h : Str) (ps : List (Str × List Mark))
    (h1 : Views on () t) (h2 : Views k b (paragraphs ps)) :
    Views (do Cli.println (h ++ [':']); on; Cli.println []; k) b (paragraphs ((h, t) :: ps)) := by
  refine .of_eq (.bind (views_println _) <| .bind h1 <| .bind (views_println _) h2) ?_
  rw [paragraphs_cons, show ":\n".toList = [':'] ++ ['\n'] by decide]
  simp only [List.append_assoc, List.nil_append]

section generic
variable {A : Type} [IpAddr A] [AddrSpec A] [LawfulIpAddr A]

theorem asLines_map {α : Type} (f : α → Str) (l : List α) : asLines (l.map f) = l.flatMap (fun x => f x ++ ['\n']) := by
  unfold asLines
  rw [List.flatMap_map]

/-! ## Shortest lists -/

theorem range_shortest (pr : Profile) (a b : A) (htop : max (val a) (val b) ≠ 2 ^ width A - 1) (ns : List (Net A)) :
    rangeToSubnets pr a b = .ok ns ↔ Shortest (min (val a) (val b)) (max (val a) (val b)) ns := by
  have ha := val_lt a
  have hb := val_lt b
  have hbet : Between a b = fun x => min (val a) (val b) ≤ val x ∧ val x ≤ max (val a) (val b) := by
    funext x
    rw [between_iff]
    exact propext ⟨fun h => by omega, fun h => by omega⟩
  obtain ⟨vs, z1, z2, z3, -, z5⟩ := C39_range_partial pr a b (fun x hx => by rw [between_iff] at hx; omega)
  have hv : Shortest (min (val a) (val b)) (max (val a) (val b)) vs :=
    ⟨z2, z3, hbet ▸ z5, fun other h1 h2 => (C40_minimal pr a b vs z1 other h1 (hbet ▸ h2)).1⟩
  constructor
  · intro h
    rw [z1] at h
    cases h
    exact hv
  · rintro ⟨h1, h2, h3, h4⟩
    have hp : vs.Perm ns := (C40_minimal pr a b vs z1 ns h1 (hbet ▸ h3)).2 (h4 vs z2 (hbet ▸ z5))
    rw [z1, hp.eq_of_pairwise (le := fun a b => Below a b) (fun a b _ _ hab hba => ?_) z3 h2]
    have := hab _ _ (base_member a) (base_member b)
    have := hba _ _ (base_member b) (base_member a)
    omega

theorem listsRest_shortest {n : Net A} {mx last : A} {us : List (Net A)} (h : ListsRest n mx us) (hl : Member n last)
    (hg : ∀ a, Member n a → val a ≤ val last) (htop : val last ≠ 2 ^ width A - 1) (hodd : val mx % 2 = 1) (hm : Member n mx)
    (vs : List (Net A)) : Shortest (min (val mx + 1) (val last)) (max (val mx + 1) (val last)) vs ↔ vs = us := by
  have h1 := hg mx hm
  have h2 := val_lt last
  have hdw : 2 ∣ 2 ^ width A := ⟨2 ^ (width A - 1), by rw [← Nat.pow_succ']; congr 1; have := width_pos (A := A); omega⟩
  obtain ⟨nx, hnx⟩ := val_surj (A := A) (val mx + 1) (by omega)
  have e := listsRest_eq h hnx hl hg htop hodd .checked
  rw [← hnx, ← range_shortest .checked nx last (by omega), e]
  exact ⟨fun h => (Exec.ok.inj h).symm, fun h => by rw [h]⟩

theorem shortest_exists (a b : A) (htop : max (val a) (val b) ≠ 2 ^ width A - 1) :
    ∃ ns : List (Net A), Shortest (min (val a) (val b)) (max (val a) (val b)) ns := by
  have ha := val_lt a
  have hb := val_lt b
  obtain ⟨vs, z1, -⟩ := C39_range_partial .checked a b (fun x hx => by rw [between_iff] at hx; omega)
  exact ⟨vs, (range_shortest .checked a b htop vs).mp z1⟩

theorem resized_iff (pr : Profile) (n : Net A) (hn : WF n) (m : A) (ns : List (Net A)) :
    resizeNetwork pr n m = .ok (ns, compare (hostBitCount n.subnetMask) (hostBitCount m)) ↔ Resized n m ns := by
  obtain ⟨vs, h1, h2, h3, h4, -⟩ := C50_result pr n m hn
  constructor
  · intro h
    rw [h1] at h
    cases h
    exact ⟨h3, h4⟩
  · rintro ⟨g3, g4⟩
    have key : ∀ us vs : List (Net A), (∀ o ∈ us, WF o ∧ o.subnetMask = m) → (∀ o ∈ vs, WF o ∧ o.subnetMask = m) →
        us.map networkNumber = vs.map networkNumber → us = vs := by
      intro us
      induction us with
      | nil => intro vs _ _ h; cases vs with | nil => rfl | cons _ _ => cases h
      | cons u us ih =>
        intro vs hu hv h
        cases vs with
        | nil => cases h
        | cons v vs =>
          rw [List.map_cons, List.map_cons, List.cons.injEq] at h
          obtain ⟨e1, e2⟩ := h
          have w1 := hu u (by simp)
          have w2 := hv v (by simp)
          rw [wf_of_netNum w1.1 w2.1 (w1.2.trans w2.2.symm) (by rw [netNum_eq, netNum_eq]; exact e1),
            ih vs (fun o ho => hu o (List.mem_cons_of_mem _ ho)) (fun o ho => hv o (List.mem_cons_of_mem _ ho)) e2]
    rw [h1, key vs ns h3 g3 (h4.trans g4.symm)]

/-! ## Resizing -/

section
variable {on : Net A → Option A → Cli Unit} {D : Net A → List Mark → Prop} (hon : ∀ m, WF m → ∃ t, D m t ∧ Views (on m none) () t)
include hon

theorem views_printSubnets (ns : List (Net A)) (hw : ∀ m ∈ ns, WF m) : ∀ i, ∃ ts, Pointwise D ns ts ∧
    Views (printSubnets on i ns) () (paragraphs (((List.range' (i + 1) ns.length).map fun i => "Subnet ".toList ++ showNat 10 i).zip ts)) := by
  induction ns with
  | nil => exact fun i => ⟨[], .nil, views_pure ()⟩
  | cons n ns ih =>
    intro i
    obtain ⟨t, h1, h2⟩ := hon n (hw n (by simp))
    obtain ⟨ts, h3, h4⟩ := ih (fun m hm => hw m (by simp [hm])) (i + 1)
    exact ⟨_, .cons h1 h3, views_paragraph _ _ h2 h4⟩

theorem resize_views (rt : Runtime) (n : Net A) (hn : WF n) (m : A) :
    ∃ ns t ts, Resized n m ns ∧ D n t ∧ Pointwise D ns ts ∧
      Views (resizeAndOutput rt n m on) () (paragraphs (("Original network".toList, t) ::
        (resizeHeadings (showNat 10) (hostBitCount n.subnetMask) (hostBitCount m) ns.length).zip ts)) := by
  obtain ⟨ns, h1, h2, h3, -⟩ := C50_result rt.profile n m hn
  obtain ⟨t, ht, hs⟩ := hon n hn
  have hw : ∀ o ∈ ns, WF o := fun o ho => (h3 o ho).1
  have hone : hostBitCount n.subnetMask ≤ hostBitCount m → ∃ o, ns = [o] := by
    intro hle
    rw [Nat.sub_eq_zero_of_le hle] at h2
    exact List.length_eq_one_iff.mp h2
  have hbody : ∃ ts, Pointwise D ns ts ∧
      Views (match compare (hostBitCount n.subnetMask) (hostBitCount m) with
        | .lt => do
          Cli.println "Supernet:".toList
          on (← (Exec.index ns 0 : Exec (Net A))) none
          Cli.println []
        | .eq => do
          Cli.println "Same-sized net:".toList
          on (← (Exec.index ns 0 : Exec (Net A))) none
          Cli.println []
        | .gt => printSubnets on 0 ns) ()
        (paragraphs ((resizeHeadings (showNat 10) (hostBitCount n.subnetMask) (hostBitCount m) ns.length).zip ts)) := by
    unfold resizeHeadings
    cases hc : compare (hostBitCount n.subnetMask) (hostBitCount m) with
    | lt =>
      have hc := Nat.compare_eq_lt.mp hc
      obtain ⟨o, rfl⟩ := hone (Nat.le_of_lt hc)
      obtain ⟨v, h4, h5⟩ := hon o (hw o (by simp))
      refine ⟨[v], .cons h4 .nil, ?_⟩
      rw [if_pos hc]
      refine .of_eq (.bind (views_println _) <| .bind (views_lift (a := o) rfl) <| .bind h5 (views_println _)) ?_
      rw [List.zip_cons_cons, paragraphs_cons, show "Supernet".toList ++ ":\n".toList = "Supernet:".toList ++ ['\n'] by decide]
      simp only [List.append_assoc, List.nil_append, List.append_nil, List.zip_nil_left, paragraphs, List.flatMap_nil]
    | eq =>
      have hc := Nat.compare_eq_eq.mp hc
      obtain ⟨o, rfl⟩ := hone (Nat.le_of_eq hc)
      obtain ⟨v, h4, h5⟩ := hon o (hw o (by simp))
      refine ⟨[v], .cons h4 .nil, ?_⟩
      rw [if_neg (by omega), if_pos hc]
      refine .of_eq (.bind (views_println _) <| .bind (views_lift (a := o) rfl) <| .bind h5 (views_println _)) ?_
      rw [List.zip_cons_cons, paragraphs_cons, show "Same-sized net".toList ++ ":\n".toList = "Same-sized net:".toList ++ ['\n'] by decide]
      simp only [List.append_assoc, List.nil_append, List.append_nil, List.zip_nil_left, paragraphs, List.flatMap_nil]
    | gt =>
      have hc := Nat.compare_eq_gt.mp hc
      obtain ⟨ts, h4, h5⟩ := views_printSubnets hon ns hw 0
      refine ⟨ts, h4, ?_⟩
      rw [if_neg (by omega), if_neg (by omega)]
      refine .of_eq h5 ?_
      congr 2
      rw [List.range'_eq_map_range, List.map_map]
      apply List.map_congr_left
      intro i _
      simp [Nat.add_comm]
  obtain ⟨ts, h4, h5⟩ := hbody
  refine ⟨ns, t, ts, (resized_iff rt.profile n hn m ns).mp h1, ht, h4, ?_⟩
  rw [resizeAndOutput, h1]
  simp only [Cli.lift_ok_bind]
  exact views_paragraph "Original network".toList _ hs h5

end

/-! ## Splitting -/

theorem plain_splitTail (pr : Profile) (n : Net A) (ns : List (Net A)) : AllPlain (splitTail pr n ns).out := by
  rw [splitTail]
  refine .bind (.lift _) fun lasts => .bind (.lift _) fun mx => ?_
  dsimp only
  split
  · exact .bind (.println _) fun _ => .nil
  · refine .bind (.lift _) fun o => ?_
    cases o with
    | none => exact .nil
    | some nx =>
      refine .bind (.println _) fun _ => .bind (.lift _) fun _ => .bind (.lift _) fun us => ?_
      exact .bind (plain_printNets us) fun _ => .nil

theorem splitBlocks_trivial {hcs : List Int} {ns : List (Net A)} {u : Str} (h : SplitBlocks (fun _ t => t = []) hcs ns u) :
    visible (((hcs.zip ns).map (splitBlock (fun (_ : Net A) (_ : Option A) => (pure () : Cli Unit)))).flatten) = u := by
  induction h with
  | nil => rfl
  | cons h1 _ ih =>
    subst h1
    rw [List.zip_cons_cons, List.map_cons, List.flatten_cons, visible_append, ih]
    congr 1
    rw [splitBlock, visible_cons, cellsOf_out_snd, show " hosts:\n".toList = " hosts:".toList ++ ['\n'] by decide]
    simp only [List.append_assoc, List.append_nil]
    rfl

theorem splitTail_spec (rt : Runtime) (n : Net A) (hn : WF n) (hcs : List Int) (hne : hcs ≠ []) (hnn : ∀ c ∈ hcs, 0 ≤ c)
    (ns : List (Net A)) (h : splitSubnet rt n hcs = .ok (some ns)) :
    ∃ mx, IsGreatestUsed ns mx ∧
      (¬ Member n mx → Shows (splitTail rt.profile n ns) 0 "Network is too small\n".toList) ∧
      (Member n mx → (∀ a, Member n a → val a ≠ 2 ^ width A - 1) → ∃ us : List (Net A), Shows (splitTail rt.profile n ns) 0
        ("Unused networks:\n".toList ++ netLines us) ∧ ListsRest n mx us) ∧
      (Member n mx → (∃ a, Member n a ∧ val a = 2 ^ width A - 1) → (splitTail rt.profile n ns).res = .panic .unwrapNone ∧
        visible (splitTail rt.profile n ns).out = "Unused networks:\n".toList ∧ messages (splitTail rt.profile n ns).out = []) := by
  have e := outputSplit_tail (on := fun _ _ => pure ()) rt n hcs ns h rfl fun _ _ => rfl
  rcases outputSplit_outcome (on := fun _ _ => pure ()) (D := fun _ t => t = []) (fun m _ => ⟨[], rfl, shows_pure ()⟩) rt n hn hcs hne hnn
    with ⟨h1, -⟩ | ⟨ns', mx, t, u, h1, h2, h3, h4, h5, h6, h7⟩
  · rw [h] at h1; cases h1
  rw [h] at h1
  cases h1
  have hu := splitBlocks_trivial h4
  subst h3
  have cancel : ∀ (x : List OutEv) (t : Str),
      visible ((OutEv.out ("Subnet to split:".toList ++ ['\n']) :: (pure () : Cli Unit).out ++ [OutEv.out ['\n']]) ++
        ((hcs.zip ns).map (splitBlock (fun (_ : Net A) (_ : Option A) => (pure () : Cli Unit)))).flatten ++ x) =
          "Subnet to split:\n".toList ++ [] ++ ['\n'] ++ u ++ t → visible x = t := by
    intro x t hx
    rw [visible_append, visible_append, hu] at hx
    have e1 : visible (OutEv.out ("Subnet to split:".toList ++ ['\n']) :: (pure () : Cli Unit).out ++ [OutEv.out ['\n']]) =
        "Subnet to split:\n".toList ++ [] ++ ['\n'] := by decide
    rw [e1] at hx
    exact List.append_cancel_left hx
  have msgs : ∀ x : List OutEv,
      messages ((OutEv.out ("Subnet to split:".toList ++ ['\n']) :: (pure () : Cli Unit).out ++ [OutEv.out ['\n']]) ++
        ((hcs.zip ns).map (splitBlock (fun (_ : Net A) (_ : Option A) => (pure () : Cli Unit)))).flatten ++ x) = [] → messages x = [] := by
    intro x hx
    rw [messages_append] at hx
    exact (List.append_eq_nil_iff.mp hx).2
  have hshow : ∀ c t, Shows (outputSplit rt n hcs fun _ _ => pure ()) c ("Subnet to split:\n".toList ++ [] ++ ['\n'] ++ u ++ t) →
      Shows (splitTail rt.profile n ns) c t := by
    rintro c t ⟨k1, k2, k3⟩
    rw [e] at k1 k2 k3
    exact ⟨k1, cancel _ _ k2, msgs _ k3⟩
  refine ⟨mx, h2, fun hm => hshow _ _ (h5 hm), fun hm ht => ?_, fun hm ht => ?_⟩
  · obtain ⟨us, k1, k2⟩ := h6 hm ht
    exact ⟨us, hshow _ _ (by rw [← List.append_assoc]; exact k1), k2⟩
  · obtain ⟨k1, k2, k3, -⟩ := h7 hm ht
    rw [e] at k1 k2 k3
    exact ⟨k1, cancel _ _ k2, msgs _ k3⟩

section
variable {on : Net A → Option A → Cli Unit} {D : Net A → List Mark → Prop} (hon : ∀ m, WF m → ∃ t, D m t ∧ Views (on m none) () t)
include hon

theorem marks_splitBlocks (hcs : List Int) (hpos : ∀ c ∈ hcs, 0 ≤ c) (ns : List (Net A)) (hl : ns.length = hcs.length) (hw : ∀ m ∈ ns, WF m) :
    ∃ ts, Pointwise D ns ts ∧ marks (((hcs.zip ns).map (splitBlock on)).flatten) = paragraphs ((hcs.map (splitHeading (showNat 10))).zip ts) ∧
      messages (((hcs.zip ns).map (splitBlock on)).flatten) = [] := by
  induction hcs generalizing ns with
  | nil =>
    cases List.length_eq_zero_iff.mp hl
    exact ⟨[], .nil, rfl, rfl⟩
  | cons c hcs ih =>
    cases ns with
    | nil => cases hl
    | cons n ns =>
      obtain ⟨t, h1, -, h2, h3⟩ := hon n (hw n (by simp))
      obtain ⟨ts, h4, h5, h6⟩ := ih (fun c h => hpos c (List.mem_cons_of_mem _ h)) ns (by simpa using hl)
        fun m hm => hw m (List.mem_cons_of_mem _ hm)
      refine ⟨t :: ts, .cons h1 h4, ?_, ?_⟩
      · have hc : "Subnet for ".toList ++ showInt c ++ " hosts:".toList ++ ['\n'] = splitHeading (showNat 10) c ++ ":\n".toList := by
          unfold splitHeading
          rw [show " hosts:".toList = " hosts".toList ++ [':'] by decide, show ":\n".toList = [':'] ++ ['\n'] by decide,
            shownInt_pos (hpos c (by simp))]
          generalize " hosts".toList = u
          generalize "Subnet for ".toList = w
          simp only [List.append_assoc]
        rw [List.zip_cons_cons, List.map_cons, List.flatten_cons, marks_append, h5, splitBlock, hc, marks_cons, marks_append, h2,
          List.map_cons, List.zip_cons_cons, paragraphs_cons]
        generalize splitHeading (showNat 10) c ++ ":\n".toList = u
        simp only [marksOf, marks_cons, marks_nil, List.append_assoc, List.append_nil]
      · rw [List.zip_cons_cons, List.map_cons, List.flatten_cons, messages_append, h6, splitBlock,
          ← List.singleton_append, messages_append, messages_append, h3]
        rfl

theorem split_views_none (rt : Runtime) (n : Net A) (hn : WF n) (hcs : List Int) (h : splitSubnet rt n hcs = .ok none) :
    ∃ t, D n t ∧ Views (outputSplit rt n hcs on) 1 (paragraphs [("Subnet to split".toList, t)] ++
      plainly "Not enough addresses available for this split.\n".toList) := by
  obtain ⟨t, h1, h2⟩ := hon n hn
  refine ⟨t, h1, ?_⟩
  rw [outputSplit, h]
  simp only [Cli.lift_ok_bind]
  refine .of_eq (.bind (views_println _) <| .bind h2 <| .bind (views_println _) <| .bind (views_println _) (views_pure 1)) ?_
  rw [paragraphs_cons, show ":\n".toList = [':'] ++ ['\n'] by decide,
    show "Subnet to split:".toList = "Subnet to split".toList ++ [':'] by decide,
    show "Not enough addresses available for this split.\n".toList = "Not enough addresses available for this split.".toList ++ ['\n'] by decide]
  simp only [List.append_assoc, List.nil_append, List.append_nil, paragraphs, List.flatMap_nil]

theorem split_views_some (rt : Runtime) (n : Net A) (hn : WF n) (hcs : List Int) (hpos : ∀ c ∈ hcs, 0 ≤ c)
    (ns : List (Net A)) (h : splitSubnet rt n hcs = .ok (some ns)) (hl : ns.length = hcs.length) (hw : ∀ m ∈ ns, WF m) :
    ∃ t ts evs, D n t ∧ Pointwise D ns ts ∧
      marks evs = paragraphs (("Subnet to split".toList, t) :: (hcs.map (splitHeading (showNat 10))).zip ts) ∧ messages evs = [] ∧
      outputSplit rt n hcs on = ⟨evs ++ (splitTail rt.profile n ns).out, (splitTail rt.profile n ns).res⟩ := by
  obtain ⟨t, h1, h2, h3, h4⟩ := hon n hn
  obtain ⟨ts, h5, h6, h7⟩ := marks_splitBlocks hon hcs hpos ns hl hw
  refine ⟨t, ts, _, h1, h5, ?_, ?_, outputSplit_tail rt n hcs ns h h2 fun m hm => ?_⟩
  · rw [marks_append, h6, paragraphs_cons, marks_append, marks_cons, h3, show ":\n".toList = [':'] ++ ['\n'] by decide,
      show "Subnet to split:".toList = "Subnet to split".toList ++ [':'] by decide]
    simp only [marksOf, marks_cons, marks_nil, List.append_assoc, List.append_nil]
  · rw [messages_append, h7, messages_append, ← List.singleton_append, messages_append, h4]
    rfl
  · obtain ⟨t, -, h, -⟩ := hon m (hw m hm)
    exact h

end

/-! ## Outcomes -/

section
variable {F : Family A} {on : Net A → Option A → Cli Unit} (hF : F.Displayed on)
include hF

theorem resize_iff (rt : Runtime) (n : Net A) (hn : WF n) (m : A) (x : Cli Nat)
    (hx : x = (do resizeAndOutput rt n m on; return 0)) (r : Outcome) :
    (∃ ns t ts, Resized n m ns ∧ F.Block n none t ∧ Pointwise (fun n t => F.Block n none t) ns ts ∧
      r = .shown (paragraphs (("Original network".toList, t) ::
        (resizeHeadings F.num (hostBitCount n.subnetMask) (hostBitCount m) ns.length).zip ts))) ↔ r = Outcome.of x := by
  obtain ⟨ns, t, ts, h1, h2, h3, h4⟩ := resize_views (D := fun n t => F.Block n none t) (fun m hm => hF.block m hm none) rt n hn m
  have ho : Outcome.of x = .shown (paragraphs (("Original network".toList, t) ::
        (resizeHeadings F.num (hostBitCount n.subnetMask) (hostBitCount m) ns.length).zip ts)) := by
    rw [hF.num, hx]
    exact of_views (.of_eq (.bind h4 (views_pure 0)) (List.append_nil _))
  rw [ho]
  constructor
  · rintro ⟨ns', t', ts', k1, k2, k3, rfl⟩
    have e := (resized_iff rt.profile n hn m ns).mpr h1
    rw [(resized_iff rt.profile n hn m ns').mpr k1] at e
    cases e
    cases hF.unique k2 h2
    cases hF.unique_all k3 h3
    rfl
  · rintro rfl
    exact ⟨ns, t, ts, h1, h2, h3, rfl⟩

theorem split_none_iff (rt : Runtime) (n : Net A) (hn : WF n) (hcs : List Int) (h : splitSubnet rt n hcs = .ok none) (r : Outcome) :
    (∃ t, F.Block n none t ∧ r = ⟨paragraphs [("Subnet to split".toList, t)] ++
        plainly "Not enough addresses available for this split.\n".toList, [], .status 1⟩) ↔ r = Outcome.of (outputSplit rt n hcs on) := by
  obtain ⟨t, h1, h2⟩ := split_views_none (D := fun n t => F.Block n none t) (fun m hm => hF.block m hm none) rt n hn hcs h
  rw [of_views h2]
  constructor
  · rintro ⟨t', h3, rfl⟩
    cases hF.unique h3 h1
    rfl
  · rintro rfl
    exact ⟨t, h1, rfl⟩

theorem split_some_iff (rt : Runtime) (n : Net A) (hn : WF n) (hcs : List Int) (hne : hcs ≠ []) (hpos : ∀ c ∈ hcs, 0 ≤ c)
    (ns : List (Net A)) (h : splitSubnet rt n hcs = .ok (some ns)) (r : Outcome) :
    (∃ text, F.SplitText n hcs ns text ∧ F.SplitRest n ns text r) ↔ r = Outcome.of (outputSplit rt n hcs on) := by
  obtain ⟨hl, hw⟩ : ns.length = hcs.length ∧ ∀ m ∈ ns, WF m := by
    rcases splitSubnet_any rt rt n hcs with ⟨h', -⟩ | ⟨ns₁, _, _, _, _, h1, -, h3, -, -, h6, -, h8, -⟩
    · rw [h] at h'; cases h'
    · rw [h] at h1
      cases h1
      exact ⟨h3, fun m hm => (h8.cidr m (h6.mem_iff.mpr hm)).choose_spec.1⟩
  obtain ⟨t, ts, evs, h3, h8, hm1, hm2, he⟩ :=
    split_views_some (D := fun n t => F.Block n none t) (fun m hm => hF.block m hm none) rt n hn hcs hpos ns h hl hw
  obtain ⟨mx, h2, h5, h6, h7⟩ := splitTail_spec rt n hn hcs hne hpos ns h
  have hplain := plain_splitTail rt.profile n ns
  have hodd := greatest_odd rt n hcs hpos ns h mx h2
  obtain ⟨last, hl, -⟩ := lastAddr_spec hn.hz
  obtain ⟨hl1, hl2⟩ := last_greatest n hn hl
  generalize htx : paragraphs (("Subnet to split".toList, t) :: (hcs.map (splitHeading (showNat 10))).zip ts) = text at hm1
  have htext : F.SplitText n hcs ns text := ⟨t, ts, h3, h8, by rw [← htx, hF.num]⟩
  have huniq : ∀ text', F.SplitText n hcs ns text' → text' = text := by
    rintro text' ⟨t', ts', k1, k2, rfl⟩
    cases hF.unique k1 h3
    cases hF.unique_all k2 h8
    rw [← htx, hF.num]
  have hshow : ∀ c u, Shows (splitTail rt.profile n ns) c u →
      Outcome.of (outputSplit rt n hcs on) = ⟨text ++ plainly u, [], .status c⟩ := by
    rintro c u ⟨k1, k2, k3⟩
    rw [he, Outcome.of, k1]
    simp only
    rw [marks_append, hm1, hplain.marks, k2, messages_append, hm2, k3]
    rfl
  have habort : ∀ p u, (splitTail rt.profile n ns).res = .panic p ∧ visible (splitTail rt.profile n ns).out = u ∧
      messages (splitTail rt.profile n ns).out = [] → Outcome.of (outputSplit rt n hcs on) = ⟨text ++ plainly u, [], .panics⟩ := by
    rintro p u ⟨k1, k2, k3⟩
    rw [he, Outcome.of, k1]
    simp only
    rw [marks_append, hm1, hplain.marks, k2, messages_append, hm2, k3]
    rfl
  constructor
  · rintro ⟨text', k1, used, k2, k3, k4⟩
    cases huniq text' k1
    cases isGreatestUsed_unique ⟨k2, k3⟩ h2
    rcases k4 with ⟨k4, rfl⟩ | ⟨k4, last', k5, k6, ⟨k7, rfl⟩ | ⟨k7, us, k8, rfl⟩⟩
    · exact (hshow _ _ (h5 k4)).symm
    · exact (habort _ _ (h7 k4 ⟨last', k5, k7⟩)).symm
    · obtain rfl : last' = last := val_inj _ _ (Nat.le_antisymm (hl2 _ k5) (k6 _ hl1))
      obtain ⟨us', g1, g2⟩ := h6 k4 (fun x hx h => k7 (Nat.le_antisymm (Nat.le_sub_one_of_lt (val_lt _)) (h ▸ k6 x hx)))
      cases (listsRest_shortest g2 hl1 hl2 k7 hodd k4 us).mp k8
      rw [hF.netLines]
      exact (hshow _ _ g1).symm
  · rintro rfl
    refine ⟨text, htext, mx, h2.1, h2.2, ?_⟩
    by_cases hm : Member n mx
    · right
      refine ⟨hm, last, hl1, hl2, ?_⟩
      by_cases ht : val last = 2 ^ width A - 1
      · exact .inl ⟨ht, habort _ _ (h7 hm ⟨last, hl1, ht⟩)⟩
      · obtain ⟨us, g1, g2⟩ := h6 hm (fun x hx h => ht (Nat.le_antisymm (Nat.le_sub_one_of_lt (val_lt _)) (h ▸ hl2 x hx)))
        refine .inr ⟨ht, us, (listsRest_shortest g2 hl1 hl2 ht hodd hm us).mpr rfl, ?_⟩
        rw [hF.netLines]
        exact hshow _ _ g1
    · exact .inl ⟨hm, hshow _ _ (h5 hm)⟩

end
end generic
end Ripcalc
