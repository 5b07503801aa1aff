import Verif.Lemmas.JamMaint
/-! # Reading from a base that holds given messages -/

set_option linter.unusedSimpArgs false

namespace CM

theorem jam_readHdr {b : JamBase} {start : UInt32} {ms : List (Option JamMsg)} (h : JamHolds b start ms) (n : UInt32) :
    jamReadHdr b n = .ok (match ms[n.toNat]? with
      | some (some m) => .ok (m.hdr, m.subs)
      | some none => .error .noMessage
      | none => .error .io) := by
  have hg := jam_get h n
  obtain ⟨off, h⟩ := h
  match hm : ms[n.toNat]? with
  | none => rw [jamReadHdr, h.readNone hm]
  | some none =>
    obtain ⟨i, h1, h2⟩ := h.readGone hm
    rw [jamReadHdr, h1]
    simp only [h2, if_true]
  | some (some m) =>
    rw [hm] at hg
    rw [jamGet] at hg
    match hr : jamReadHdr b n with
    | .error u => rw [hr] at hg; cases hg
    | .ok (.error r) => rw [hr] at hg; cases hg
    | .ok (.ok (x, s)) =>
      rw [hr] at hg
      change (match jamReadText b x.txtOffset x.txtLen with | .error r => Except.ok (Except.error r) | .ok text => Except.ok (Except.ok { hdr := x, subs := s, text })) = (Except.ok (Except.ok m) : Except UB (Except JamErr JamMsg)) at hg
      match ht : jamReadText b x.txtOffset x.txtLen with
      | .error r => rw [ht] at hg; cases hg
      | .ok t => rw [ht] at hg; cases hg; rfl

theorem jam_readText {b : JamBase} {start : UInt32} {ms : List (Option JamMsg)} (h : JamHolds b start ms) {n : Nat} {m : JamMsg} (hm : ms[n]? = some (some m)) :
    jamReadText b m.hdr.txtOffset m.hdr.txtLen = .ok m.text := by
  have hfew : n < 2 ^ 32 := by
    obtain ⟨off, h⟩ := h
    have := h.few
    have := (List.getElem?_eq_some_iff.1 hm).1
    omega
  have hn : (UInt32.ofNat n).toNat = n := by rw [UInt32.toNat_ofNat']; omega
  have hg := jam_get h (UInt32.ofNat n)
  have hr := jam_readHdr h (UInt32.ofNat n)
  rw [hn, hm] at hg hr
  rw [jamGet, hr] at hg
  change (match jamReadText b m.hdr.txtOffset m.hdr.txtLen with | .error r => Except.ok (Except.error r) | .ok text => Except.ok (Except.ok { hdr := m.hdr, subs := m.subs, text })) = (Except.ok (Except.ok m) : Except UB (Except JamErr JamMsg)) at hg
  match ht : jamReadText b m.hdr.txtOffset m.hdr.txtLen with
  | .error r => rw [ht] at hg; cases hg
  | .ok t =>
    rw [ht] at hg
    have := congrArg (fun z : Except UB (Except JamErr JamMsg) => match z with | .ok (.ok m) => m.text | _ => []) hg
    exact congrArg _ this

end CM
