import Verif.Proofs.Net
import Verif.Proofs.Blocks
import Verif.Spec.Listing
/-!
# CIDR networks as aligned blocks
-/
set_option linter.unusedSectionVars false
namespace Ripcalc
open AddrSpec LawfulIpAddr
variable {A : Type} [IpAddr A] [AddrSpec A] [LawfulIpAddr A]

theorem cidr_le {n : Net A} {p : Nat} (hc : IsCidr p n) : p ≤ width A := (isCidr_netBits hc).2.2

theorem cidr_dvd {n : Net A} {p : Nat} (hc : IsCidr p n) : 2 ^ (width A - p) ∣ val n.baseAddr := by
  rw [cidr_base hc]; exact Nat.dvd_mul_left _ _

theorem pow_split {w p : Nat} (hp : p ≤ w) : 2 ^ p * 2 ^ (w - p) = 2 ^ w := by
  rw [← Nat.pow_add]; congr 1; omega

theorem cidr_end {n : Net A} {p : Nat} (hc : IsCidr p n) : val n.baseAddr + 2 ^ (width A - p) ≤ 2 ^ width A := by
  rw [cidr_base hc, ← pow_split (cidr_le hc)]
  have := Nat.mul_le_mul_right (2 ^ (width A - p)) (cidr_netNum_lt hc)
  rw [Nat.succ_mul] at this
  exact this

theorem cidr_last {n : Net A} {p : Nat} (hc : IsCidr p n) :
    ∃ l : A, n.lastAddrOfSubnet = .ok l ∧ val l = val n.baseAddr + (2 ^ (width A - p) - 1) := by
  obtain ⟨l, h1, h2⟩ := lastAddr_spec hc.1.hz
  have := Nat.two_pow_pos (width A - p)
  refine ⟨l, h1, ?_⟩
  rw [h2, (isCidr_netBits hc).2.1, cidr_wval hc (cidr_netNum_lt hc) (by omega), cidr_base hc]

theorem cidr_next (pr : Profile) {n : Net A} {p : Nat} (hc : IsCidr p n) :
    (val n.baseAddr + 2 ^ (width A - p) = 2 ^ width A → n.nextSubnetBaseAddr pr = .ok none) ∧
    (val n.baseAddr + 2 ^ (width A - p) < 2 ^ width A →
      ∃ b : A, n.nextSubnetBaseAddr pr = .ok (some b) ∧ val b = val n.baseAddr + 2 ^ (width A - p)) := by
  obtain ⟨h1, h2⟩ := nextSubnet_spec pr hc.1.hz
  have hpos := Nat.two_pow_pos (width A - p)
  have hlt := cidr_netNum_lt hc
  have e : val n.baseAddr + 2 ^ (width A - p) = (netNum n + 1) * 2 ^ (width A - p) := by
    rw [cidr_base hc, Nat.add_mul, Nat.one_mul]
  rw [(isCidr_netBits hc).1] at h1 h2
  rw [e, ← pow_split (cidr_le hc)]
  constructor
  · intro h
    exact h1 (Nat.eq_of_mul_eq_mul_right hpos h)
  · intro h
    have hlt := Nat.lt_of_mul_lt_mul_right h
    obtain ⟨b, h3, h4⟩ := h2 hlt
    refine ⟨b, h3, ?_⟩
    rw [h4, cidr_wval hc hlt hpos]; rfl

theorem cidr_inBlk {n : Net A} {p : Nat} (hc : IsCidr p n) (a : A) :
    Member n a ↔ InBlk (width A - p) (val n.baseAddr) (val a) := cidr_member_iff hc a

/-- The numbers of a block of a CIDR network are addresses. -/
theorem cidr_inBlk_addr {n : Net A} {p : Nat} (hc : IsCidr p n) {x : Nat} (hx : InBlk (width A - p) (val n.baseAddr) x) :
    ∃ a : A, val a = x ∧ Member n a := by
  have h1 := cidr_end hc
  obtain ⟨a, ha⟩ := val_surj (A := A) x (by have := hx.2; omega)
  exact ⟨a, ha, by rw [cidr_inBlk hc, ha]; exact hx⟩

theorem cidr_mask_inj {n n' : Net A} {p : Nat} (hc : IsCidr p n) (hc' : IsCidr p n') : n.subnetMask = n'.subnetMask :=
  isPrefixMask_inj ((hc.1.prefix_iff p).mp hc.2) ((hc'.1.prefix_iff p).mp hc'.2)

theorem cidr_ext {n n' : Net A} {p : Nat} (hc : IsCidr p n) (hc' : IsCidr p n') (h : val n.baseAddr = val n'.baseAddr) : n = n' := by
  have h1 := cidr_mask_inj hc hc'
  have h2 := val_inj _ _ h
  have h3 : n.cidrPrefix = n'.cidrPrefix := by rw [hc.2, hc'.2]
  cases n; cases n'; simp_all

/-- The network of an address with prefix `p`. -/
theorem cidr_of_addr (a : A) {p : Nat} (hp : p ≤ width A) :
    ∃ n, Net.newWithPrefix a p = .ok n ∧ IsCidr p n ∧ InBlk (width A - p) (val n.baseAddr) (val a) ∧
      (n.baseAddr = a ↔ 2 ^ (width A - p) ∣ val a) := by
  obtain ⟨n, h1, h2, h3⟩ := newWithPrefix_wf (a := a) hp
  have h4 := (cidr_inBlk h2 a).mp h3
  refine ⟨n, h1, h2, h4, ⟨fun h => h ▸ cidr_dvd h2, fun h => ?_⟩⟩
  exact val_inj _ _ (blk_eq (cidr_dvd h2) h h4 (inBlk_base _ _))

/-- Two CIDR networks are nested or disjoint. -/
theorem cidr_subset {n o : Net A} {p q : Nat} (hn : IsCidr p n) (ho : IsCidr q o) (hpq : q ≤ p) {a : A} (h1 : Member n a)
    (h2 : Member o a) : ∀ b, Member n b → Member o b := by
  intro b hb
  rw [cidr_inBlk hn] at h1 hb
  rw [cidr_inBlk ho] at h2 ⊢
  exact blk_subset (cidr_dvd hn) (cidr_dvd ho) (by omega) h1 h2 _ hb

/-- The exponent of the size of a CIDR network. -/
def sizeExp (n : Net A) : Nat := width A - n.cidrPrefix.getD 0

theorem sizeExp_eq {n : Net A} {p : Nat} (hc : IsCidr p n) : sizeExp n = width A - p := by rw [sizeExp, hc.2]; rfl

/-- `blocks_minimal` for networks. -/
theorem cidr_minimal (S T : List (Net A)) (hS : ∀ s ∈ S, ∃ p, IsCidr p s) (hT : ∀ t ∈ T, ∃ p, IsCidr p t)
    (hd : S.Pairwise Disjoint) (hc : ∀ a : A, (∃ s ∈ S, Member s a) ↔ (∃ t ∈ T, Member t a))
    (hm : ∀ s ∈ S, ∀ p, IsCidr p s → ∀ o, IsCidr (p - 1) o → p ≠ 0 → Member o s.baseAddr →
      ∃ a : A, Member o a ∧ ¬ ∃ s' ∈ S, Member s' a) :
    S.length ≤ T.length ∧ (T.length ≤ S.length → S.Perm T) := by
  have tr : ∀ {n : Net A}, (∃ p, IsCidr p n) → ∀ a, Member n a ↔ InBlk (sizeExp n) (val n.baseAddr) (val a) := by
    rintro n ⟨p, hp⟩ a
    rw [sizeExp_eq hp, cidr_inBlk hp]
  have ad : ∀ {n : Net A}, (∃ p, IsCidr p n) → ∀ x, InBlk (sizeExp n) (val n.baseAddr) x → ∃ a : A, val a = x ∧ Member n a := by
    rintro n ⟨p, hp⟩ x hx
    rw [sizeExp_eq hp] at hx
    exact cidr_inBlk_addr hp hx
  refine blocks_minimal sizeExp (fun n => val n.baseAddr) S T ?_ ?_ ?_ ?_ ?_ ?_
  · intro s hs; obtain ⟨p, hp⟩ := hS s hs; rw [sizeExp_eq hp]; exact cidr_dvd hp
  · intro s hs; obtain ⟨p, hp⟩ := hT s hs; rw [sizeExp_eq hp]; exact cidr_dvd hp
  · intro s hs t ht h1 h2
    obtain ⟨p, hp⟩ := hS s hs
    obtain ⟨q, hq⟩ := hT t ht
    rw [sizeExp_eq hp, sizeExp_eq hq] at h1
    have := cidr_le hp; have := cidr_le hq
    have e : p = q := by omega
    subst e
    exact cidr_ext hp hq h2
  · refine hd.imp_of_mem ?_
    rintro s s' hs hs' h x ⟨h1, h2⟩
    obtain ⟨a, rfl, ha⟩ := ad (hS s hs) x h1
    exact h a ⟨ha, (tr (hS s' hs') a).mpr h2⟩
  · intro x
    constructor
    · rintro ⟨s, hs, hx⟩
      obtain ⟨a, rfl, ha⟩ := ad (hS s hs) x hx
      obtain ⟨t, ht, hta⟩ := (hc a).mp ⟨s, hs, ha⟩
      exact ⟨t, ht, (tr (hT t ht) a).mp hta⟩
    · rintro ⟨t, ht, hx⟩
      obtain ⟨a, rfl, ha⟩ := ad (hT t ht) x hx
      obtain ⟨s, hs, hsa⟩ := (hc a).mpr ⟨t, ht, ha⟩
      exact ⟨s, hs, (tr (hS s hs) a).mp hsa⟩
  · intro s hs
    obtain ⟨p, hp⟩ := hS s hs
    have hpw := cidr_le hp
    rw [sizeExp_eq hp]
    rcases Nat.eq_zero_or_pos p with h0 | h0
    · subst h0
      have hb := cidr_end hp
      rw [Nat.sub_zero] at hb
      have hb0 : val s.baseAddr = 0 := by omega
      refine ⟨2 ^ width A, ?_, ?_⟩
      · rw [hb0]
        show InBlk _ (0 - 0 % _) _
        rw [Nat.zero_mod]
        refine ⟨Nat.zero_le _, ?_⟩
        have := Nat.two_pow_pos (width A)
        rw [show width A - 0 + 1 = width A + 1 from rfl, Nat.pow_succ]
        omega
      · rintro ⟨s', hs', hx⟩
        obtain ⟨a, ha, -⟩ := ad (hS s' hs') _ hx
        have := val_lt a
        omega
    · obtain ⟨o, -, ho, hin, -⟩ := cidr_of_addr s.baseAddr (p := p - 1) (by omega)
      obtain ⟨a, h1, h2⟩ := hm s hs p hp o ho (by omega) ((cidr_inBlk ho _).mpr hin)
      have e : width A - (p - 1) = width A - p + 1 := by omega
      rw [cidr_inBlk ho, e] at h1
      have hbase : val o.baseAddr = parentBase (width A - p) (val s.baseAddr) := by
        have := cidr_dvd ho
        rw [e] at this hin
        exact blk_eq this (parentBase_dvd _ _) hin (parentBase_mem _ _)
      refine ⟨val a, by rw [← hbase]; exact h1, ?_⟩
      rintro ⟨s', hs', hx⟩
      exact h2 ⟨s', hs', (tr (hS s' hs') a).mpr hx⟩

end Ripcalc
