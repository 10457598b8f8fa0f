import Verif.Lemmas.Short
import Verif.Props.Buffers

/-!
# Encoding into buffers of other sizes

C63: buffers that are too small. C67: buffers that are larger than needed.
-/

namespace Zbgp.Props

open Spec

/-! ## C67 -/

/-- **C67 (partial)**: what an encoder does in a buffer it does in every longer one: it writes the same octets, reports the
same number and leaves the added octets alone. For every value of every BGP encoder, and for BMP messages whose addresses
are IPv6. Missing: BMP messages with IPv4 addresses, see `C67_bmp_v4`. -/
theorem C67_size_independent_partial :
    (∀ a, SizeIndependent (encodeAddrV4 a)) ∧ (∀ a, SizeIndependent (encodeAddrV6 a)) ∧ (∀ a, SizeIndependent (encodeAddr a)) ∧
    (∀ (ty : BgpMessageType) n, SizeIndependent fun b => BgpSessionParams.prepareMessageBuf b ty n) ∧
    (∀ m : BgpOpenMessage, SizeIndependent m.encodeTo) ∧ (∀ m : BgpNotificationMessage, SizeIndependent m.encodeTo) ∧
    SizeIndependent keepaliveEncode ∧
    (∀ (x : BgpAddrs) p, SizeIndependent (x.encodeTo p)) ∧ (∀ (x : BgpAttrItem) p, SizeIndependent (x.encodeTo p)) ∧
    (∀ (x : BgpUpdateMessage) p, SizeIndependent (x.encodeTo p)) ∧
    (∀ h : BmpMessageHeader, SizeIndependent h.encodeTo) ∧
    (∀ h : BmpMessagePeerHeader, isV4 h.peeraddress = false → SizeIndependent h.encodeTo) ∧
    (∀ x : BmpInfoVal, SizeIndependent x.encodeTo) ∧
    (∀ x, SizeIndependent (BmpMessage.Initiation x).encodeTo) ∧ (∀ x, SizeIndependent (BmpMessage.Termination x).encodeTo) ∧
    (∀ x, isV4 x.peer.peeraddress = false → SizeIndependent (BmpMessage.RouteMonitoring x).encodeTo) ∧
    (∀ x, isV4 x.peer.peeraddress = false → SizeIndependent (BmpMessage.PeerDownNotification x).encodeTo) ∧
    (∀ x, isV4 x.peer.peeraddress = false → isV4 x.localaddress = false →
      SizeIndependent (BmpMessage.PeerUpNotification x).encodeTo) := by
  have ht : ∀ (x : BmpMessage) (code : U8) (f : Enc) (_ : Ext f), BmpMessage.encodeTo x = (fun buf =>
      if buf.isEmpty then .err .insufficientBufferSize else BmpMessage.encodeTyped code f buf) → SizeIndependent x.encodeTo := by
    intro x code f hf hx buf buf' n ext he
    have hz := sizeIndependent_of _ (h := ext_typed code f)
    rw [hx] at he ⊢
    cases buf with
    | nil => cases he
    | cons a t => exact hz _ _ _ ext he
  exact ⟨fun a => sizeIndependent_of _, fun a => sizeIndependent_of _, fun a => sizeIndependent_of _,
    fun _ _ => sizeIndependent_of _, fun _ => sizeIndependent_of _, fun _ => sizeIndependent_of _, sizeIndependent_of _,
    fun _ _ => sizeIndependent_of _, fun _ _ => sizeIndependent_of _, fun _ _ => sizeIndependent_of _, fun _ => sizeIndependent_of _,
    fun h h6 => sizeIndependent_of _ (h := ext_peer h h6), fun _ => sizeIndependent_of _,
    fun x => ht _ 4 x.encodeTo inferInstance rfl, fun x => ht _ 5 x.encodeTo inferInstance rfl,
    fun x h6 => ht _ 0 x.encodeTo (ext_routeMonitoring x h6) rfl, fun x h6 => ht _ 2 x.encodeTo (ext_peerDown x h6) rfl,
    fun x h6 l6 => ht _ 3 x.encodeTo (ext_peerUp x h6 l6) rfl⟩

/-- an UPDATE in a buffer of just its size, and in a larger one -/
example : ∃ b', (⟨.IPV4U [⟨0x0a000000, 8⟩], .None, [.MED ⟨7⟩]⟩ : BgpUpdateMessage).encodeTo (.new 1 180 .IPv4 0 []) (List.replicate 13 9) = .ok (b', 13) ∧
    (⟨.IPV4U [⟨0x0a000000, 8⟩], .None, [.MED ⟨7⟩]⟩ : BgpUpdateMessage).encodeTo (.new 1 180 .IPv4 0 []) (List.replicate 15 9) =
      .ok (b' ++ [9, 9], 13) := ⟨_, rfl, rfl⟩

/-- **C67 fails** for the per-peer header of every IPv4 peer: the added octets are cleared (unless they are zero). -/
theorem C67_bmp_v4 (h : BmpMessagePeerHeader) (h4 : isV4 h.peeraddress = true) (buf ext : Bytes) (hb : buf.length = 42)
    (he : ∃ x ∈ ext, x ≠ 0) :
    (∃ buf' n, h.encodeTo buf = .ok (buf', n)) ∧
      ∀ buf' n, h.encodeTo buf = .ok (buf', n) → h.encodeTo (buf ++ ext) ≠ .ok (buf' ++ ext, n) := by
  have h1 := peerHeader_clears h buf (by simp [peerHeaderWire_length, hb])
  have h2 := peerHeader_clears h (buf ++ ext) (by simp [peerHeaderWire_length, hb])
  refine ⟨⟨_, _, h1⟩, fun buf' n hk hx => ?_⟩
  rw [h1] at hk
  cases hk
  rw [h2] at hx
  simp only [peerHeaderWire_length, h4, behind] at hx
  rw [List.drop_left' hb, List.drop_of_length_le (by omega)] at hx
  simp at hx
  obtain ⟨x, hx1, hx2⟩ := he
  rw [← hx] at hx1
  exact hx2 (List.eq_of_mem_replicate hx1)

example : isV4 (⟨0, 0, ⟨0, 0⟩, .v4 1, 1, 1, 0⟩ : BmpMessagePeerHeader).peeraddress = true ∧ ∃ x ∈ ([9, 0] : Bytes), x ≠ 0 :=
  ⟨rfl, 9, by decide, by decide⟩

/-! ## C63: never success -/

/-- **C63 (partial)**: no encoder reports success on a buffer that is too small, for everything that is written at all.
Missing: that the failure is an error and not a panic; this holds for the encoders below, and not for the others. -/
theorem C63_never_ok_partial :
    (∀ (m : BgpOpenMessage) (buf : Bytes), (∀ c ∈ m.caps, CapEncodable c) →
      buf.length < (openWire m.asNum.toNat m.holdTime.toNat m.routerId.toNat (capsParams m.caps)).length →
      ∀ r, m.encodeTo buf ≠ .ok r) ∧
    (∀ (m : BgpNotificationMessage) (buf : Bytes), buf.length < (notifWire m).length → ∀ r, m.encodeTo buf ≠ .ok r) ∧
    (∀ (x : BgpAddrs) p (buf : Bytes), AddrsWF x → buf.length < (addrsWire x).length → ∀ r, x.encodeTo p buf ≠ .ok r) ∧
    (∀ (x : BgpAttrItem) p (buf : Bytes), AttrOk p x → (valueWire p.hasAs32bit x).length ≤ maxValue (attrCode x).2 →
      buf.length < (attrWire p.hasAs32bit x).length → ∀ r, x.encodeTo p buf ≠ .ok r) ∧
    (∀ (x : BgpUpdateMessage) p (buf : Bytes), PartsOk p x → (addrsWire x.withdraws).length ≤ 65535 →
      (∀ a b c, x.attrs = a ++ b :: c → (attrsWire p a).length ≤ 65533) → buf.length < (updateWire p x).length →
      ∀ r, x.encodeTo p buf ≠ .ok r) ∧
    (∀ (x : BmpInfoVal) (buf : Bytes), buf.length < (infoWire x.infotype.toNat x.info).length → ∀ r, x.encodeTo buf ≠ .ok r) ∧
    (∀ (x : BmpMessageInitiation) (buf : Bytes), buf.length < (optInfo 0 x.str0 ++ (optInfo 0 x.sysDescr ++ optInfo 0 x.sysName)).length →
      ∀ r, x.encodeTo buf ≠ .ok r) := by
  refine ⟨?_, ?_, ?_, ?_, ?_, ?_, ?_⟩
  · exact fun m buf hc hb => short_not_ok (sizeIndependent_of _) (writes_open m hc) hb
  · exact fun m buf hb => short_not_ok (sizeIndependent_of _) (errs_notif m).1 hb
  · exact fun x p buf h hb => short_not_ok (sizeIndependent_of _) (addrs_writes x p h) hb
  · exact fun x p buf h hl hb => short_not_ok (sizeIndependent_of _) (attr_writes p x h hl) hb
  · exact fun x p buf h hw hf hb => short_not_ok (sizeIndependent_of _) (update_writes p x h hw hf) hb
  · exact fun x buf hb => short_not_ok (sizeIndependent_of _) (info_writes x) hb
  · exact fun x buf hb => short_not_ok (sizeIndependent_of _) (init_writes x) hb

/-- an UPDATE that needs 13 octets does not succeed with 12 -/
example : (updateWire (.new 1 180 .IPv4 0 []) ⟨.IPV4U [⟨0x0a000000, 8⟩], .None, [.MED ⟨7⟩]⟩).length = 13 := rfl

/-! ## C63: errors -/

/-- **C63 (partial)**: addresses, NOTIFICATION messages, communities and the values of all path attributes but MP_REACH_NLRI,
MP_UNREACH_NLRI and unknown ones, and of BMP the common header and Termination are written into every buffer with
room for them, and give an error on every other. -/
theorem C63_errors_partial :
    (∀ a, ErrsWhenShort (encodeAddrV4 a) (be 4 a.toNat)) ∧ (∀ a, ErrsWhenShort (encodeAddrV6 a) (be 16 a.toNat)) ∧
    (∀ m : BgpNotificationMessage, ErrsWhenShort m.encodeTo (notifWire m)) ∧
    (∀ c : BgpCommunity, ErrsWhenShort c.encodeTo (communityWire c)) ∧
    (∀ c : BgpLargeCommunity, ErrsWhenShort c.encodeTo (largeCommunityWire c)) ∧
    (∀ c : BgpExtCommunity, ErrsWhenShort c.encodeTo (extCommunityWire c)) ∧
    (∀ (x : BgpAttrItem) p, AttrOk p x → ChecksSize x → ErrsWhenShort (x.encodeValue p) (valueWire p.hasAs32bit x)) ∧
    (∀ h : BmpMessageHeader, ErrsWhenShort h.encodeTo (commonHeaderWire h)) ∧
    (∀ x : BmpMessageTermination, ErrsWhenShort x.encodeTo (terminationWire x)) :=
  ⟨errs_addrV4, errs_addrV6, errs_notif, errs_community, errs_large, errs_ext, fun x p => errs_value p x, errs_commonHeader,
    fun x => ⟨term_writes x, short_term x⟩⟩

example : AttrOk (.new 1 180 .IPv4 0 []) (.CommunityList ⟨[⟨1⟩, ⟨2⟩]⟩) ∧ ChecksSize (.CommunityList ⟨[⟨1⟩, ⟨2⟩]⟩) ∧
    (valueWire false (.CommunityList ⟨[⟨1⟩, ⟨2⟩]⟩)).length = 8 := ⟨by simp [AttrOk, Spec.Ascending, communityNumber], trivial, rfl⟩

/-- **C63 (partial)**: the message header, capabilities, flow specifications, and of BMP addresses, the per-peer header and peer-down
messages give an error on every buffer too small for them. -/
theorem C63_more_errors_partial :
    (∀ (ty : BgpMessageType) n (buf : Bytes), buf.length < n + 19 → (BgpSessionParams.prepareMessageBuf buf ty n).IsErr) ∧
    (∀ (c : BgpCapability) (buf : Bytes), buf.length < c.bytesLen → (c.fillBuffer buf).IsErr) ∧
    (∀ (x : BgpFlowSpec BgpAddrV4) (buf : Bytes), FsOpsOk x ∨ FsPrefixOk x → buf.length < (fsWire x).length → (x.encodeTo buf).IsErr) ∧
    (∀ (x : BgpFlowSpec FS6) (buf : Bytes), FsOpsOk x ∨ FsPrefixOk x → buf.length < (fsWire x).length → (x.encodeTo buf).IsErr) ∧
    (∀ (h : BmpMessagePeerHeader) (buf : Bytes), buf.length < (peerHeaderWire h).length → (h.encodeTo buf).IsErr) ∧
    (∀ (x : BmpMessagePeerDown) (buf : Bytes), buf.length < (peerDownWire x).length → (x.encodeTo buf).IsErr) ∧
    (∀ (x : BmpMessageTermination) (buf : Bytes), buf.length < (terminationWire x).length + 1 →
      ((BmpMessage.Termination x).encodeTo buf).IsErr) ∧
    (∀ (x : BmpMessagePeerDown) (buf : Bytes), buf.length < (peerDownWire x).length + 1 →
      ((BmpMessage.PeerDownNotification x).encodeTo buf).IsErr) ∧
    (∀ (a : IpAddr) (buf : Bytes), buf.length < (bmpAddr a).length → (encodeBmpAddr a buf).IsErr) := by
  refine ⟨?_, ?_, fun x buf h => short_fs x h buf, fun x buf h => short_fs x h buf, ?_, short_peerDown, ?_, ?_, ?_⟩
  · intro ty n buf hb
    unfold BgpSessionParams.prepareMessageBuf
    rw [if_pos hb]; trivial
  · intro c buf hb
    unfold BgpCapability.fillBuffer
    rw [if_pos hb]; trivial
  · exact fun h buf hb => short_peer h buf (by rwa [peerHeaderWire_length] at hb)
  · intro x buf hb
    cases buf with
    | nil => trivial
    | cons a t => exact errs_typed 5 (short_term x) (by simp) hb
  · intro x buf hb
    cases buf with
    | nil => trivial
    | cons a t => exact errs_typed 2 (short_peerDown x) (by simp) hb
  · intro a buf hb
    rw [bmpAddr_length] at hb
    unfold encodeBmpAddr
    rw [if_pos hb]; trivial

example : (peerDownWire ⟨⟨0, 0, ⟨0, 0⟩, .v4 1, 1, 1, 0⟩, .RemoteNotification ⟨6, 2, 0⟩⟩).length = 66 := rfl

/-! ## C63: panics -/

/-- **C63 fails** for every list of IPv4, IPv6, labeled, VPN and MDT prefixes, with path ids or without: it is written into
every buffer with room for it, and every other buffer is a panic. -/
theorem C63_prefixes_panic {T : Type} [BgpItem T] [NlriKind T] (k : PrefixKind T) :
    (∀ l : List T, (∀ x ∈ l, NlriKind.WF x) → PanicsWhenShort (encodeItems l) (l.flatMap nlriWire)) ∧
    (∀ l : List (WithPathId T), (∀ x ∈ l, NlriKind.WF x.nlri) → PanicsWhenShort (encodePathIdItems l) (l.flatMap pathIdWire)) :=
  have := k.lawful
  have := k.isExt
  have := k.isPlain
  ⟨fun l h => panics_of_plain (sizeIndependent_of _) (writes_items l h) fun b => plain_encLoop (fun x b => plain_item x b) l b 0,
    fun l h => panics_of_plain (sizeIndependent_of _) (pathIdItems_writes l h) fun b => plain_encLoop (fun x b => plain_pathIdItem x b) l b 0⟩

/-- a list that needs six octets -/
example : PrefixKind (Labeled (WithRd BgpAddrV6)) ∧
    (([⟨0x0a000000, 8⟩, ⟨0x0a010200, 24⟩] : List BgpAddrV4).flatMap nlriWire).length = 6 ∧
    NlriKind.WF (⟨0x0a010200, 24⟩ : BgpAddrV4) := ⟨.labeled (.withRd .v6), rfl, by show _ ≤ _; decide⟩

/-- **C63**, exactly, for path attributes other than MP_REACH_NLRI, MP_UNREACH_NLRI and unknown ones: a buffer without
room for the attribute header (three octets, or four with the extended length flag) is a panic, one with room for the
header but not for the value is an error. -/
theorem C63_attributes_exact (p : BgpSessionParams) (x : BgpAttrItem) (h : AttrOk p x) (hc : ChecksSize x) (buf : Bytes)
    (hb : buf.length < (attrWire p.hasAs32bit x).length) :
    (buf.length < (if extended (attrCode x).2 then 4 else 3) → x.encodeTo p buf = .panic) ∧
    ((if extended (attrCode x).2 then 4 else 3) ≤ buf.length → (x.encodeTo p buf).IsErr) :=
  short_attr h hc hb

example : AttrOk (.new 1 180 .IPv4 0 []) (.MED ⟨7⟩) ∧ ChecksSize (.MED ⟨7⟩) ∧ (attrWire false (.MED ⟨7⟩)).length = 7 ∧
    extended (attrCode (.MED ⟨7⟩)).2 = false := ⟨trivial, trivial, rfl, rfl⟩

/-- **C63**, exactly, for OPEN: on a buffer that is too small the encoder panics if the buffer ends where a capability
begins, or one octet behind, and returns an error otherwise. -/
theorem C63_open_exact (m : BgpOpenMessage) (hc : ∀ c ∈ m.caps, CapEncodable c) (buf : Bytes)
    (hb : buf.length < 10 + (capsParams m.caps).length) :
    ((10 ≤ buf.length ∧ CapBoundary m.caps (buf.length - 10)) → m.encodeTo buf = .panic) ∧
    (¬ (10 ≤ buf.length ∧ CapBoundary m.caps (buf.length - 10)) → (m.encodeTo buf).IsErr) :=
  short_open m hc buf hb

/-- with two capabilities of four octets (two for the parameter), the sizes 10, 11, 14 and 15 panic -/
example : (BgpOpenMessage.encodeTo ⟨65001, 180, 0x01010101, [.CapRR, .CapRR]⟩ (List.replicate 9 9)).IsErr ∧
    BgpOpenMessage.encodeTo ⟨65001, 180, 0x01010101, [.CapRR, .CapRR]⟩ (List.replicate 11 9) = .panic ∧
    (BgpOpenMessage.encodeTo ⟨65001, 180, 0x01010101, [.CapRR, .CapRR]⟩ (List.replicate 12 9)).IsErr ∧
    BgpOpenMessage.encodeTo ⟨65001, 180, 0x01010101, [.CapRR, .CapRR]⟩ (List.replicate 14 9) = .panic ∧
    (∃ r, BgpOpenMessage.encodeTo ⟨65001, 180, 0x01010101, [.CapRR, .CapRR]⟩ (List.replicate 18 9) = .ok r) ∧
    CapEncodable .CapRR := ⟨trivial, rfl, trivial, rfl, ⟨_, rfl⟩, trivial, by decide⟩

/-- **C63 fails** for: UPDATE messages on buffers of less than two octets, PMSI_TUNNEL and ATTR_SET attributes, which
panic on buffers of any size, BMP information elements on buffers with room for the header but not for the
text, and BMP statistics and route mirroring, on buffers of any size. -/
theorem C63_panics :
    (∀ (x : BgpUpdateMessage) p (buf : Bytes), buf.length < 2 → x.withdraws = .None → x.encodeTo p buf = .panic) ∧
    (∀ x p buf, (BgpAttrItem.PMSITunnel x).encodeTo p buf = .panic) ∧
    (∀ x xs p buf, (BgpAttrItem.AttrSet x xs).encodeTo p buf = .panic) ∧
    (∀ (x : BgpAttrUnknown) p (buf : Bytes), buf.length < (attrWire p.hasAs32bit (.Unknown x)).length →
      (BgpAttrItem.Unknown x).encodeTo p buf = .panic) ∧
    (∀ (x : BmpInfoVal) (buf : Bytes), 4 ≤ buf.length → buf.length < 4 + x.info.length → x.encodeTo buf = .panic) ∧
    (∀ buf, buf ≠ [] → BmpMessage.StatisticsReport.encodeTo buf = .panic) ∧
    (∀ buf, buf ≠ [] → BmpMessage.RouteMirroring.encodeTo buf = .panic) := by
  have hp : ∀ (x : BgpAttrItem) p, (∀ b, x.encodeValue p b = .panic) → ∀ buf, x.encodeTo p buf = .panic := by
    intro x p h buf
    unfold BgpAttrItem.encodeTo
    by_cases hb : (if extended x.attr.flags then 4 else 3) ≤ buf.length
    · rw [encodeBgpattr_eq _ _ _ hb, h]; rfl
    · exact encodeBgpattr_small _ _ _ (by omega)
  refine ⟨?_, fun x p => hp _ _ fun b => rfl, fun x xs p => hp _ _ fun b => rfl, ?_, ?_, ?_, ?_⟩
  · intro x p buf hb hw
    unfold BgpUpdateMessage.encodeTo BgpUpdateMessage.encodeWithdraws
    have : BgpUpdateMessage.nlriEncoder p x.withdraws = none := by
      rw [hw]; unfold BgpUpdateMessage.nlriEncoder; cases p.peerMode <;> rfl
    rw [this]
    rcases buf with _ | ⟨a, _ | ⟨b, t⟩⟩
    · rfl
    · rfl
    · simp at hb; omega
  · intro x p buf hb
    unfold BgpAttrItem.encodeTo
    by_cases h : (if extended (BgpAttrItem.Unknown x).attr.flags then 4 else 3) ≤ buf.length
    · rw [encodeBgpattr_eq _ _ _ h]
      have hc := attr_code (.Unknown x)
      have hf : (BgpAttrItem.Unknown x).attr.flags = (attrCode (.Unknown x)).2 := by rw [← hc]
      simp only [attrWire, List.length_append, attrHeader_length, ← hf, valueWire] at hb
      simp only [BgpAttrItem.encodeValue, BgpAttrUnknown.encodeTo]
      unfold copyAt
      rw [if_neg (by simp; omega)]
      rfl
    · exact encodeBgpattr_small _ _ _ (by omega)
  · intro x buf h4 hb
    have hn := short_not_ok (sizeIndependent_of _) (info_writes x) (buf := buf) (by rw [infoWire_length]; exact hb)
    have hpl : Plain (x.encodeTo buf) := by
      unfold BmpInfoVal.encodeTo
      rw [if_neg (by omega)]
      unfold modFrom setn16
      plain
    rcases hpl with ⟨r, h⟩ | h
    · exact absurd h (hn r)
    · exact h
  · intro buf h; cases buf with
    | nil => exact absurd rfl h
    | cons a t => rfl
  · intro buf h; cases buf with
    | nil => exact absurd rfl h
    | cons a t => rfl

example : (4 ≤ ([1, 2, 3, 4, 5] : Bytes).length ∧ ([1, 2, 3, 4, 5] : Bytes).length < 4 + (⟨2, [65, 66]⟩ : BmpInfoVal).info.length) ∧
    (attrWire false (.Unknown ⟨⟨99, 0xc0⟩, [1, 2]⟩)).length = 5 := ⟨by decide, rfl⟩

end Zbgp.Props
