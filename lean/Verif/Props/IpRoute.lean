import Verif.Props.Ip
import Verif.Ads.Route
/-
Property C266: the selection of filter chains (C33, C53, C55, C153) was modelled over address ranges already taken apart; here it is connected with the text of the ranges.
-/
namespace Verif.Ip

/-- an address as family and number: what the model of the filter chains works with (specification) -/
def family (ip : Bytes) : Route.Ip := match to4 ip with
  | some q => ⟨false, number q⟩
  | none => ⟨true, number ip⟩

/-- a range as family, number and length (specification) -/
def Net.family (c : Net) : Route.Cidr := match to4 c.ip with
  | some q => ⟨false, number q, c.ones - 8 * (c.ip.length - 4)⟩
  | none => ⟨true, number c.ip, c.ones⟩

/-- a range of a filter chain as the mesh writes it, read by the program (specification) -/
def Range.read (r : Range) : Route.CidrRange := ⟨String.ofList r.pre, (parseCIDR (r.pre ++ '/' :: dec r.len)).map Net.family⟩

/-- a range the program can have: 4 or 16 bytes under a mask of its own length (specification) -/
def Net.Ok (c : Net) : Prop := (c.ip.length = 4 ∨ c.ip.length = 16) ∧ c.ones ≤ 8 * c.ip.length ∧ ∃ p, p.length = c.ip.length ∧ c.ip = mask c.ones p

theorem parseCIDR_ok {s : Str} {c : Net} (h : parseCIDR s = some c) : c.Ok := by
  unfold parseCIDR at h
  by_cases hs : '/' ∈ s
  · rw [if_pos hs] at h
    simp only [] at h
    cases h4 : parseIPv4 (s.takeWhile (· ≠ '/')) with
    | some p =>
      rw [h4] at h
      simp only [] at h
      cases hd : dtoi ((s.dropWhile (· ≠ '/')).drop 1) with
      | none => rw [hd] at h; simp at h
      | some ni =>
        obtain ⟨n, i⟩ := ni
        rw [hd] at h
        simp only [] at h
        split at h
        · simp at h
        · rename_i hn
          simp only [Option.some.injEq] at h
          subst h
          have hp := (v4_iff.1 h4).length
          refine ⟨.inl (by rw [mask_length, hp]), ?_, p, by rw [mask_length], rfl⟩
          simp only [mask_length, hp]; omega
    | none =>
      rw [h4] at h
      simp only [] at h
      cases h6 : parseIPv6 (s.takeWhile (· ≠ '/')) with
      | none => rw [h6] at h; simp at h
      | some p =>
        rw [h6] at h
        cases hd : dtoi ((s.dropWhile (· ≠ '/')).drop 1) with
        | none => rw [hd] at h; simp at h
        | some ni =>
          obtain ⟨n, i⟩ := ni
          rw [hd] at h
          simp only [] at h
          split at h
          · simp at h
          · rename_i hn
            simp only [Option.some.injEq] at h
            subst h
            have hp := (v6_iff.1 h6).length
            refine ⟨.inr (by rw [mask_length, hp]), ?_, p, by rw [mask_length], rfl⟩
            simp only [mask_length, hp]; omega
  · rw [if_neg hs] at h; simp at h

theorem contains_family {c : Net} (hc : c.Ok) (ip : Option Bytes) (hip : ∀ a, ip = some a → a.length = 16) : c.family.contains (ip.map family) = c.contains ip := by
  cases ip with
  | none => rfl
  | some a =>
    have ha := hip a rfl
    obtain ⟨hl, ho, p, hp, hm⟩ := hc
    simp only [Option.map_some, Net.contains, Route.Cidr.contains]
    have hfa : family a = (match to4 a with | some q => ⟨false, number q⟩ | none => ⟨true, number a⟩ : Route.Ip) := rfl
    have hfc : c.family = (match to4 c.ip with | some q => ⟨false, number q, c.ones - 8 * (c.ip.length - 4)⟩ | none => ⟨true, number c.ip, c.ones⟩ : Route.Cidr) := rfl
    rw [hfa, hfc]
    cases h4c : to4 c.ip with
    | none =>
      have hl16 : c.ip.length = 16 := by
        rcases hl with hl | hl
        · unfold to4 at h4c; rw [if_pos hl] at h4c; simp at h4c
        · exact hl
      cases h4a : to4 a with
      | none =>
        simp only [Option.getD_none, Nat.lt_irrefl, if_false, hl16, ha, decide_true, Bool.true_and, Route.width, if_true]
        have := agree_iff c.ip a c.ones (by rw [hl16, ha]) ho
        rw [hl16] at this
        rw [Bool.eq_iff_iff, this, decide_eq_true_eq]
        exact Iff.rfl
      | some q =>
        have hq := (to4_some ha h4a).1
        simp [hl16, hq]
    | some m =>
      have hlm : m.length = 4 := by
        rcases hl with hl | hl
        · unfold to4 at h4c; rw [if_pos hl] at h4c; simp at h4c; rw [← h4c]; exact hl
        · exact (to4_some hl h4c).1
      cases h4a : to4 a with
      | none => simp [hlm, ha]
      | some q =>
        have hq := (to4_some ha h4a).1
        have hones : (if 4 < c.ip.length then c.ones - 96 else c.ones) = c.ones - 8 * (c.ip.length - 4) := by
          rcases hl with hl | hl
          · rw [hl, if_neg (by omega)]; omega
          · rw [hl, if_pos (by omega)]
        simp only [Option.getD_some, hlm, hones, hq, decide_true, Bool.true_and, Route.width, Bool.false_eq_true, if_false]
        have := agree_iff m q (c.ones - 8 * (c.ip.length - 4)) (by rw [hlm, hq]) (by rw [hlm]; omega)
        rw [hlm] at this
        rw [Bool.eq_iff_iff, this, decide_eq_true_eq]
        exact Iff.rfl

/-- **C266**: the ranges of a filter chain as text mean what the theorems about filter chains (C33, C53, C55, C153) take them for -/
theorem C266_chains (rs : List Range) (ip : Option Bytes) (hip : ∀ a, ip = some a → a.length = 16) :
    Route.matchPrefixRanges (rs.map Range.read) (ip.map family) = matchPrefixRanges rs ip := by
  induction rs with
  | nil => rfl
  | cons r rs ih =>
    rw [List.map_cons, Route.matchPrefixRanges, matchPrefixRanges, ih]
    have hpre : (r.read.addr = "") ↔ r.pre = [] := by
      constructor
      · intro h
        have := congrArg String.toList h
        simpa [Range.read] using this
      · intro h; simp [Range.read, h]
    by_cases hp : r.pre = []
    · rw [if_pos (hpre.2 hp), if_pos hp]
    · rw [if_neg (fun h => hp (hpre.1 h)), if_neg hp]
      have hpar : r.read.parsed = (parseCIDR (r.pre ++ '/' :: dec r.len)).map Net.family := rfl
      rw [hpar]
      cases hc : parseCIDR (r.pre ++ '/' :: dec r.len) with
      | none => rfl
      | some c =>
        simp only [Option.map_some]
        rw [contains_family (parseCIDR_ok hc) ip hip]

/-- **C266**: every address has one family and one number, and they tell addresses apart -/
theorem C266_family (a b : Bytes) (ha : a.length = 16) (hb : b.length = 16) : family a = family b ↔ a = b := by
  constructor
  · intro h
    unfold family at h
    cases h4a : to4 a with
    | none =>
      cases h4b : to4 b with
      | none =>
        rw [h4a, h4b] at h
        simp only [Route.Ip.mk.injEq, true_and] at h
        exact number_inj a b (by rw [ha, hb]) h
      | some q => rw [h4a, h4b] at h; simp at h
    | some p =>
      cases h4b : to4 b with
      | none => rw [h4a, h4b] at h; simp at h
      | some q =>
        rw [h4a, h4b] at h
        simp only [Route.Ip.mk.injEq, true_and] at h
        obtain ⟨hp, rfl⟩ := to4_some ha h4a
        obtain ⟨hq, rfl⟩ := to4_some hb h4b
        rw [number_inj p q (by rw [hp, hq]) h]
  · rintro rfl; rfl

/-- the theorem is about something: a range of an IPv4 network, and one of mapped addresses -/
example : (Range.read ⟨"10.1.0.0".toList, 16⟩).parsed = some ⟨false, 10 * 2 ^ 24 + 2 ^ 16, 16⟩ := by decide +kernel
example : (Range.read ⟨"::ffff:10.1.2.3".toList, 112⟩).parsed = some ⟨false, 10 * 2 ^ 24 + 2 ^ 16, 16⟩ := by decide +kernel
example : (parseIP "10.1.2.3".toList).map family = some ⟨false, 10 * 2 ^ 24 + 2 ^ 16 + 2 * 256 + 3⟩ := by decide +kernel

end Verif.Ip
