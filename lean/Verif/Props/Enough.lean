import Verif.Lemmas.SettleMsg

/-!
# C101: the error that asks for a larger buffer goes away with a larger buffer
-/

namespace Zbgp.Props

open Spec

/-- A FlowSpec component that is not counted as more than 4094 octets settles with some size of buffer, and every longer
one is answered with "insufficient buffer size" whatever the buffer is: a program that doubles its buffer on that error
never stops. -/
theorem C101_flowspec_iff (x : BgpFlowSpec BgpAddrV4) :
    (Settles x.encodeTo ↔ ¬ TooLong x) ∧ (TooLong x → NeverEnough x.encodeTo) := by
  refine ⟨⟨fun h hl => ?_, fun h => settles_of (sets_fs x h .IPv4)⟩, never_fs x⟩
  obtain ⟨n, h⟩ := h
  have hb := never_fs x hl (List.replicate n 0)
  rcases h with ⟨k, h⟩ | ⟨e, he, h⟩ | h
  · obtain ⟨r, hr⟩ := h (List.replicate n 0) (by simp)
    rw [hr] at hb; cases hb
  · rw [h (List.replicate n 0) (by simp)] at hb; cases hb; exact he rfl
  · rw [h (List.replicate n 0) (by simp)] at hb; cases hb

/-- The same for FlowSpec for IPv6. -/
theorem C101_flowspec6_iff (x : BgpFlowSpec FS6) :
    (Settles x.encodeTo ↔ ¬ TooLong x) ∧ (TooLong x → NeverEnough x.encodeTo) := by
  refine ⟨⟨fun h hl => ?_, fun h => settles_of (sets_fs x h .IPv4)⟩, never_fs x⟩
  obtain ⟨n, h⟩ := h
  have hb := never_fs x hl (List.replicate n 0)
  rcases h with ⟨k, h⟩ | ⟨e, he, h⟩ | h
  · obtain ⟨r, hr⟩ := h (List.replicate n 0) (by simp)
    rw [hr] at hb; cases hb
  · rw [h (List.replicate n 0) (by simp)] at hb; cases hb; exact he rfl
  · rw [h (List.replicate n 0) (by simp)] at hb; cases hb

/-- The same for FlowSpec for VPNs. -/
theorem C101_flowspecVpn_iff (x : BgpFlowSpec FSV4U) :
    (Settles x.encodeTo ↔ ¬ TooLong x) ∧ (TooLong x → NeverEnough x.encodeTo) := by
  refine ⟨⟨fun h hl => ?_, fun h => settles_of (sets_fs x h .IPv4)⟩, never_fs x⟩
  obtain ⟨n, h⟩ := h
  have hb := never_fs x hl (List.replicate n 0)
  rcases h with ⟨k, h⟩ | ⟨e, he, h⟩ | h
  · obtain ⟨r, hr⟩ := h (List.replicate n 0) (by simp)
    rw [hr] at hb; cases hb
  · rw [h (List.replicate n 0) (by simp)] at hb; cases hb; exact he rfl
  · rw [h (List.replicate n 0) (by simp)] at hb; cases hb

/-- 4093 values of one octet are too long and 4092 are not. -/
example (n : Nat) : TooLong (T := BgpAddrV4) (.portAny ⟨List.replicate n ⟨false, false, false, true, 80⟩⟩) ↔ 4093 ≤ n := by
  simp [TooLong, countedVal]
  omega

/-- 819 values of more than two octets are too long and 818 are not. -/
example (n : Nat) : TooLong (T := FS6) (.flowLabel ⟨List.replicate n ⟨false, false, false, true, 70000⟩⟩) ↔ 819 ≤ n := by
  simp [TooLong, countedVal]
  omega

/-- A collection of routes of any kind settles when no FlowSpec component in it is too long. Missing: collections with
one that is, for which see `C101_update_fails`. -/
theorem C101_collections_partial (x : BgpAddrs) (p : BgpSessionParams) (h : AddrsFit x) : Settles (x.encodeTo p) :=
  settles_of (sets_addrs x h p)

/-- A path attribute settles when no FlowSpec component in it is too long. -/
theorem C101_attributes_partial (x : BgpAttrItem) (p : BgpSessionParams) (h : AttrFits x) : Settles (x.encodeTo p) :=
  settles_of (sets_attr x p h)

/-- An UPDATE message settles when no FlowSpec component in it is too long. -/
theorem C101_update_partial (m : BgpUpdateMessage) (p : BgpSessionParams) (h : UpdateFits m) : Settles (m.encodeTo p) :=
  settles_of (sets_update m p h)

/-- An UPDATE message that withdraws a FlowSpec rule with a prefix and a port, and announces a route. -/
example : UpdateFits ⟨.IPV4U [⟨0x0a000000, 8⟩], .None,
    [.Origin ⟨.Igp⟩, .MPWithdraws ⟨.FS4U [.prefixDst ⟨0xc0a80000, 16⟩, .portAny ⟨[⟨false, false, false, true, 80⟩]⟩]⟩]⟩ := by
  refine ⟨trivial, trivial, fun a ha => ?_⟩
  simp only [List.mem_cons, List.not_mem_nil, or_false] at ha
  rcases ha with rfl | rfl
  · trivial
  · intro x hx
    simp only [List.mem_cons, List.not_mem_nil, or_false] at hx
    rcases hx with rfl | rfl
    · exact fun h => h
    · simp [TooLong, countedVal]

/-- Every OPEN, NOTIFICATION and KEEPALIVE message settles, and so does the header that goes before a message. -/
theorem C101_session (m : BgpOpenMessage) (n : BgpNotificationMessage) (ty : BgpMessageType) (len : Nat) :
    Settles m.encodeTo ∧ Settles n.encodeTo ∧ Settles keepaliveEncode ∧ Settles fun b => BgpSessionParams.prepareMessageBuf b ty len :=
  ⟨settles_of inferInstance, settles_of inferInstance, settles_of inferInstance, settles_of inferInstance⟩

/-- Every BMP message settles, except a Route Monitoring message with a FlowSpec component that is too long. -/
theorem C101_bmp_partial (x : BmpMessage) (h : ∀ m, x = .RouteMonitoring m → UpdateFits m.update) : Settles x.encodeTo :=
  settles_of (sets_bmp x h)

/-- A BMP message that is not Route Monitoring needs nothing. -/
example (m : BmpMessageInitiation) : ∀ n, BmpMessage.Initiation m = .RouteMonitoring n → UpdateFits n.update := fun _ h => by cases h

/-- Withdrawing a FlowSpec rule that begins with a component that is too long gives an UPDATE message for which no
buffer of 20 octets or more is ever large enough. -/
theorem C101_update_fails (x : BgpFlowSpec BgpAddrV4) (rest : List (BgpFlowSpec BgpAddrV4)) (p : BgpSessionParams) (h : TooLong x)
    (buf : Bytes) (hb : 20 ≤ buf.length) :
    (BgpUpdateMessage.encodeTo ⟨.None, .None, [.MPWithdraws ⟨.FS4U (x :: rest)⟩]⟩ p buf) = .err .insufficientBufferSize :=
  asks_update (asks_fs4 x rest p h) buf hb

/-- The other way round an error that is not about the size may go away with a larger buffer: an address that does not
fit is a protocol error, and the same address is written when there are four octets. -/
theorem C101_other_errors_fail (a : IPv4) (buf : Bytes) :
    (buf.length < 4 → encodeAddrV4 a buf = .err .static) ∧ (4 ≤ buf.length → ∃ r, encodeAddrV4 a buf = .ok (r, 4)) := by
  constructor
  · intro h
    rw [encodeAddrV4, if_pos h]
  · intro h
    rw [encodeAddrV4, if_neg (by omega), copyAt, if_pos ⟨by omega, h, by simp [ipv4Octets]⟩]
    exact ⟨_, rfl⟩

end Zbgp.Props
