import Verif.Spec.Colors
import Verif.Proofs.Show
/-!
# Lemmas about the colours of the display of networks
-/
set_option linter.unusedSectionVars false
namespace Ripcalc
open AddrSpec LawfulIpAddr
variable {rt : Runtime}

/-- The computation ends with the value and the coloured characters. -/
def Paints (x : Cli α) (a : α) (t : List Cell) : Prop := x.res = .ok a ∧ cells x.out = t

theorem Paints.bind {x : Cli α} {f : α → Cli β} {a : α} {b : β} {t u : List Cell} (h : Paints x a t) (h' : Paints (f a) b u) :
    Paints (x >>= f) b (t ++ u) := by
  obtain ⟨o, r⟩ := x
  obtain ⟨h1, h2⟩ := h
  obtain ⟨h4, h5⟩ := h'
  simp only at h1 h2
  subst h1
  simp [Paints, h2, h4, h5]

theorem Paints.of_eq {x : Cli α} {a : α} {t u : List Cell} (h : Paints x a t) (e : t = u) : Paints x a u := e ▸ h
theorem paints_pure (a : α) : Paints (pure a : Cli α) a [] := ⟨rfl, rfl⟩
theorem paints_newline : Paints (Cli.println []) () newline := ⟨rfl, rfl⟩
theorem paints_write (hc : rt.colorsEnabled = true) (t : Str) (c : Color) (p : Int) :
    Paints (writeInColor rt t (some c) p) () (paint c (padText t p)) := by
  rw [write_colored hc]; exact ⟨rfl, by simp [cellsOf, paint]⟩

theorem paints_cols (hc : rt.colorsEnabled = true) (lw aw : Nat) (l t : Str) :
    Paints (outputInitialColumns rt lw aw l t) () (paint .white (padRight lw l) ++ paint .blue (padRight aw t)) := by
  rw [outputInitialColumns]
  refine .of_eq (.bind (paints_write hc l labelColor lw) (paints_write hc t ipAddressColor aw)) ?_
  rw [padText_nat, padText_nat]; rfl

theorem Paints.bind2 {x y : Cli Unit} {k : Cli β} {b : β} {t u : List Cell} (h : Paints (do x; y) () t) (h' : Paints k b u) :
    Paints (do x; y; k) b (t ++ u) := by
  have := h.bind (f := fun _ => k) h'
  simpa [bind_assoc] using this

theorem Paints.bind3 {x y z : Cli Unit} {k : Cli β} {b : β} {t u : List Cell} (h : Paints (do x; y; z) () t) (h' : Paints k b u) :
    Paints (do x; y; z; k) b (t ++ u) := by
  have := h.bind (f := fun _ => k) h'
  simpa [bind_assoc] using this

section generic
variable {A : Type} [IpAddr A] [AddrSpec A] [LawfulIpAddr A]

theorem paints_line (hc : rt.colorsEnabled = true) (aw : Nat) {x : Cli Unit} {bin : List Cell} (ho : Paints x () bin) (l t : Str) :
    Paints (do outputInitialColumns rt 11 aw l t; x; Cli.println []) () (cellLine aw l t bin) :=
  .of_eq (.bind (paints_cols hc 11 aw l t) <| .bind ho paints_newline) (by simp [cellLine])

/-- What the display needs to know about the function that prints the binary column of an address. -/
structure PaintsBinary (oba : A → Option A → Bool → Option Color → Cli Unit) (binary : A → (Nat → Color) → List Cell) (n : Net A)
    (byMask col : Nat → Color) : Prop where
  masked : ∀ a, Paints (oba a (some n.subnetMask) false none) () (binary a byMask)
  network : Paints (oba n.baseAddr (some n.subnetMask) true none) () (binary n.baseAddr col)
  plain : ∀ a, Paints (oba a none false none) () (binary a (fun _ => .yellow))
  mask : ∀ a, Paints (oba a none false (some .red)) () (binary a (fun _ => .red))

theorem paints_network (hc : rt.colorsEnabled = true) (aw : Nat) (oba : A → Option A → Bool → Option Color → Cli Unit)
    (outputClass : Str → Str → Cli Unit) (binary : A → (Nat → Color) → List Cell) (n : Net A) (byMask col : Nat → Color)
    (ho : PaintsBinary oba binary n byMask col) (addr : Option A) (cls : Str)
    (hcls : Paints (outputClass (bytesToBinary ((IpAddr.toBytes n.baseAddr).take 1)) (bytesToBinary ((IpAddr.toBytes n.subnetMask).take 1)))
      () (paint .magenta cls))
    {hosts : Option (A × A)} {bc : Option A}
    (h1 : n.firstHostAddr rt.profile = .ok (hosts.map Prod.fst)) (h2 : n.lastHostAddr rt.profile = .ok (hosts.map Prod.snd))
    (h3 : n.broadcastAddr = .ok bc) :
    Paints (outputNetwork rt 11 aw oba outputClass n addr) ()
      ((BlockText.mk addr n n.ciscoWildcard hosts bc n.hostCount cls).cells aw IpAddr.display binary byMask col) := by
  have hcount : Paints (outputCountPart rt 11 aw outputClass n) () (countCells aw n.hostCount cls) := by
    rw [outputCountPart, countCells]
    by_cases h : n.hostCount > 0
    · rw [if_pos h, if_pos h]; exact paints_line hc aw hcls _ _
    · rw [if_neg h, if_neg h]; exact .of_eq (paints_write hc _ _ _) (by rw [padText_zero]; rfl)
  have haddr : Paints (match addr with
      | some a => outputAddressPart rt 11 aw oba n a
      | none => pure () : Cli Unit) () (addressCells aw IpAddr.display binary n n.ciscoWildcard byMask addr) := by
    cases addr with
    | none => exact paints_pure _
    | some a =>
      simp only [outputAddressPart]
      refine .of_eq (.bind3 (paints_line hc aw (ho.masked a) _ _) <| .bind3 (paints_line hc aw (ho.mask _) _ _) <|
        .bind3 (paints_line hc aw (ho.plain _) _ _) <| .bind (paints_write hc _ _ _) paints_newline) ?_
      simp only [padText_zero, List.append_assoc, addressCells]
      rfl
  have hnet : Paints (outputNetworkPart rt 11 aw oba n) () (networkCells aw IpAddr.display binary n col) :=
    paints_line hc aw ho.network _ _
  have hhosts : Paints (do outputHostsPart rt 11 aw oba n; Cli.println []) () (hostCells aw IpAddr.display binary hosts) := by
    rw [outputHostsPart, h1, Cli.lift_ok_bind]
    cases hosts with
    | none => exact .of_eq (.bind (paints_write hc _ _ _) paints_newline) (by rw [padText_zero]; rfl)
    | some p =>
      obtain ⟨f, l⟩ := p
      simp only [Option.map_some, h2, Cli.lift_ok_bind, Exec.unwrap_some, bind_assoc]
      exact .bind3 (paints_line hc aw (ho.plain _) _ _) (paints_line hc aw (ho.plain _) _ _)
  have hbc : Paints (do outputBroadcastPart rt 11 aw oba n; Cli.println []) () (broadcastCells aw IpAddr.display binary bc) := by
    rw [outputBroadcastPart, h3, Cli.lift_ok_bind]
    cases bc with
    | none => exact .of_eq (.bind (paints_write hc _ _ _) paints_newline) (by rw [padText_zero]; rfl)
    | some x =>
      simp only [bind_assoc]
      exact paints_line hc aw (ho.plain _) _ _
  rw [outputNetwork.eq_def]
  refine .of_eq (.bind haddr <| .bind hnet <| .bind2 hhosts <| .bind2 hbc hcount) ?_
  simp only [BlockText.cells, List.append_assoc]

end generic
end Ripcalc
