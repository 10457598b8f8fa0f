import Verif.Lemmas.FreshBmp
import Verif.Lemmas.Leak

/-!
# What the buffer held before does not show (C99)
-/

namespace Zbgp.Props

open Zbgp Zbgp.Spec

theorem ignores_of_fresh {f : Enc} (h : FreshE f) : IgnoresOld f := by
  intro a b hab
  have h1 := h.both (fun _ => False) a b ⟨hab, fun _ hi => hi.elim⟩
  cases ha : f a <;> cases hb : f b <;> simp only [ha, hb, Both] at h1 <;> simp only [SameOutcome]
  · obtain ⟨h2, -, h3⟩ := h1
    refine ⟨h2, List.ext_getElem? fun i => ?_⟩
    rw [List.getElem?_take, List.getElem?_take]
    split
    · rename_i hi; exact h3.2 i (.inr ⟨Nat.zero_le _, hi⟩)
    · rfl
  · exact h1

/-- **C99** for everything but AGGREGATOR and the FQDN capability, for all values, well-formed or not: the octets an encoder
reports, or the way it fails, depend on the value, the session and the size of the buffer, not on what the buffer held. -/
theorem C99_ignores_old_partial :
    (∀ (x : BgpAddrs) p, IgnoresOld (x.encodeTo p)) ∧
    (∀ (x : BgpAttrItem) p, (∀ v, x ≠ .AggregatorAS v) → IgnoresOld (x.encodeTo p)) ∧
    (∀ (x : BgpUpdateMessage) p, NoAggregator x.attrs → IgnoresOld (x.encodeTo p)) ∧
    (∀ m : BgpOpenMessage, NoFqdn m.caps → IgnoresOld m.encodeTo) ∧
    (∀ m : BgpNotificationMessage, IgnoresOld m.encodeTo) ∧ IgnoresOld keepaliveEncode ∧
    (∀ h : BmpMessageHeader, IgnoresOld h.encodeTo) ∧ (∀ x : BmpInfoVal, IgnoresOld x.encodeTo) ∧
    (∀ x : BmpMessage, BmpFresh x → IgnoresOld x.encodeTo) := by
  refine ⟨fun x p => ignores_of_fresh inferInstance, fun x p h => ignores_of_fresh (fresh_attr x p h),
    fun x p h => ignores_of_fresh (fresh_update x p h), fun m h => ignores_of_fresh (fresh_open m h),
    fun m => ignores_of_fresh inferInstance, ignores_of_fresh inferInstance, fun m => ignores_of_fresh inferInstance,
    fun m => ignores_of_fresh inferInstance, fun x h => ?_⟩
  have ht : ∀ code enc, FreshE enc → IgnoresOld fun b => if b.isEmpty then .err .insufficientBufferSize else BmpMessage.encodeTyped code enc b :=
    fun code enc hf => ignores_of_fresh ⟨fun S a b h => by
      rw [isEmpty_len a b h.1]
      exact both_ite Iff.rfl (fun _ => both_err _) fun _ => (fresh_typed code enc hf).both S a b h⟩
  have hp : IgnoresOld fun b => if b.isEmpty then .err .insufficientBufferSize else .panic :=
    ignores_of_fresh ⟨fun S a b h => by
      rw [isEmpty_len a b h.1]
      exact both_ite Iff.rfl (fun _ => both_err _) fun _ => both_panic⟩
  cases x
  case RouteMonitoring m => exact ht 0 _ (fresh_routeMonitoring m h)
  case StatisticsReport => exact hp
  case PeerDownNotification m => exact ht 2 _ inferInstance
  case PeerUpNotification m => exact ht 3 _ (fresh_peerUp m h.1 h.2)
  case Initiation m => exact ht 4 _ inferInstance
  case Termination m => exact ht 5 _ inferInstance
  case RouteMirroring => exact hp

-- two buffers, one of them used before: the octets of an UPDATE message
example : NoAggregator [.Origin ⟨.Igp⟩] ∧
    SameOutcome (BgpUpdateMessage.encodeTo ⟨.IPV4U [⟨0x0a000000, 8⟩], .None, [.Origin ⟨.Igp⟩]⟩ (.new 1 180 .IPv4 0 []) (List.replicate 20 0))
      (BgpUpdateMessage.encodeTo ⟨.IPV4U [⟨0x0a000000, 8⟩], .None, [.Origin ⟨.Igp⟩]⟩ (.new 1 180 .IPv4 0 []) (List.replicate 20 0xaa)) :=
  ⟨by intro x hx v; simp at hx; subst hx; simp, by refine ⟨rfl, ?_⟩; decide⟩

/-- an encoder that ignores the old contents, behind 19 octets -/
theorem both_behind {f : Enc} (h1 : SizeKept f) (h2 : IgnoresOld f) {a b : Bytes} (h : a.length = b.length) :
    Both (fun x y => x.2 = y.2 ∧ x.1.length = a.length ∧ Same (fun i => 19 ≤ i ∧ i < 19 + x.2) x.1 y.1)
      (onFrom a 19 f) (onFrom b 19 f) := by
  unfold onFrom
  refine both_ite (by rw [h]) (fun hi => ?_) fun _ => trivial
  refine both_bind (R := fun x y => x.2 = y.2 ∧ x.1.length = a.length - 19 ∧ Same (fun i => i < x.2) x.1 y.1) ?_ ?_
  · have h3 := h2 (a.drop 19) (b.drop 19) (by simp [h])
    cases ha : f (a.drop 19) <;> cases hb : f (b.drop 19) <;> simp only [ha, hb, SameOutcome] at h3 <;> simp only [Both]
    · obtain ⟨h4, h5⟩ := h3
      have h6 := h1 _ _ _ ha
      have h7 := h1 _ _ _ hb
      simp only [List.length_drop] at h6 h7
      refine ⟨h4, h6, by rw [h6, h7, h], fun i hi => ?_⟩
      have := congrArg (fun l => l[i]?) h5
      simp only [List.getElem?_take, if_pos hi] at this
      exact this
    · exact h3
  · rintro ⟨x, n⟩ ⟨y, m⟩ ⟨hn, hl, hs⟩
    dsimp only at *
    refine ⟨hn, by simp [hl]; omega, by simp [hl, ← hs.1, h], fun i hj => ?_⟩
    dsimp only at hj ⊢
    rw [getElem?_tail _ _ _ _ hi, getElem?_tail _ _ _ _ (by omega), if_neg (by omega), if_neg (by omega)]
    exact hs.2 _ (by omega)

/-- **C99**, on the wire: if the encoder of a message does not show what the buffer held (and keeps its size, C62), then
neither do the octets `send_message_buf` hands to the socket, header included, nor those `prepare_message_buf` reports. -/
theorem C99_sent (f : Enc) (h1 : SizeKept f) (h2 : IgnoresOld f) (ty : BgpMessageType) :
    (∀ a b : Bytes, a.length = b.length → sent f ty a = sent f ty b) ∧ IgnoresOld (prepared f ty) := by
  constructor
  · intro a b h
    have key : Both Eq (sent f ty a) (sent f ty b) := by
      unfold sent
      refine both_bind (both_behind h1 h2 h) ?_
      rintro ⟨x, n⟩ ⟨y, m⟩ ⟨hn, hl, hs⟩
      dsimp only at hn; subst hn; dsimp only at *; have he := hs.1
      unfold BgpSessionParams.sendMessageBuf
      refine both_bind (R := fun x y => x.2 = y.2) ?_ fun x y h => (congrArg id h : x.2 = y.2)
      refine both_ite (by rw [he]) (fun _ => both_err _) fun _ => ?_
      fresh_step
      cases hx : addC (BitVec.ofNat 16 n) (19 : U16) with
      | ok lng =>
        simp only [Res.ok_bind]
        have hle : lng.toNat ≤ n + 19 := by
          unfold addC at hx
          split at hx
          · cases hx
            rw [BitVec.toNat_add]
            have : (BitVec.ofNat 16 n).toNat ≤ n := by simp [Nat.mod_le]
            have h19 : (19 : U16).toNat = 19 := rfl
            exact Nat.le_trans (Nat.mod_le _ _) (by omega)
          · cases hx
        fresh_step; fresh_step; fresh_step
        rename_i hs he
        unfold rslice
        rename_i x3 y3 _
        by_cases hr : 0 ≤ lng.toNat ∧ lng.toNat ≤ x3.length
        · rw [if_pos hr, if_pos (by rw [← he]; exact hr)]
          simp only [Res.ok_bind, Both, List.drop_zero]
          refine List.ext_getElem? fun i => ?_
          rw [List.getElem?_take, List.getElem?_take]
          split
          · exact hs.2 i (by simp only [span]; omega)
          · rfl
        · rw [if_neg hr, if_neg (by rw [← he]; exact hr)]
          trivial
      | err e => exact both_err _
      | panic => exact both_panic
      | hang => exact both_hang
    cases ha : sent f ty a <;> cases hb : sent f ty b <;> simp only [ha, hb, Both] at key <;> simp only [key]
  · intro a b h
    have key : Both (fun x y => x.2 = y.2 ∧ Same (fun i => i < x.2) x.1 y.1) (prepared f ty a) (prepared f ty b) := by
      unfold prepared
      refine both_bind (both_behind h1 h2 h) ?_
      rintro ⟨x, n⟩ ⟨y, m⟩ ⟨hn, hl, hs⟩
      dsimp only at hn; subst hn; dsimp only at *
      refine both_mono (both_with (Fresh.both (f := fun b => BgpSessionParams.prepareMessageBuf b ty n) _ _ _ hs)
        fun r hr => prepare_le hr) ?_
      rintro ⟨x, n⟩ ⟨y, m⟩ ⟨⟨hn, hl, hs⟩, hp⟩
      refine ⟨hn, hs.mono fun i hi => ?_⟩
      simp only [span]
      dsimp only at *
      omega
    cases ha : prepared f ty a <;> cases hb : prepared f ty b <;> simp only [ha, hb, Both] at key <;> simp only [SameOutcome]
    · refine ⟨key.1, List.ext_getElem? fun i => ?_⟩
      rw [List.getElem?_take, List.getElem?_take]
      split
      · rename_i hi; exact key.2.2 i hi
      · rfl
    · exact key

-- a KEEPALIVE, and an OPEN message, from any two buffers of 64 octets
example (a b : Bytes) (ha : a.length = 64) (hb : b.length = 64) :
    sent keepaliveEncode .Keepalive a = sent keepaliveEncode .Keepalive b ∧
      sent keepaliveEncode .Keepalive (List.replicate 64 7) = .ok (List.replicate 16 255 ++ [0, 19, 4]) :=
  ⟨(C99_sent keepaliveEncode (by intro b b' n h; cases h; rfl) C99_ignores_old_partial.2.2.2.2.2.1 _).1 a b (ha.trans hb.symm), by decide⟩

/-! ## What is left in the buffer -/

theorem blind_ok {f : Enc} (hf : Blind f) {a r : Bytes} {n : Nat} (h : f a = .ok (r, n)) (k : Nat) (o : U8) :
    ∃ r', f (a.set k o) = .ok (r', n) := by
  have h1 := hf.both (fun i => i ≠ k) a (a.set k o) ⟨by simp, fun i hi => by rw [List.getElem?_set_ne (Ne.symm hi)]⟩
  rw [h] at h1
  cases hb : f (a.set k o) <;> simp only [hb, Both] at h1
  obtain ⟨h2, -⟩ := h1
  rename_i r'
  obtain ⟨r1, n1⟩ := r'
  exact ⟨r1, by rw [show n = n1 from h2]⟩

/-- an octet that is left as it was and reported makes the encoder show what the buffer held -/
theorem leak_not_ignores {f : Enc} {k n : Nat} {buf : Bytes} (h : LeaksAt k f buf n) : ¬ IgnoresOld f := by
  intro hi
  obtain ⟨h1, h2, h3⟩ := h
  obtain ⟨r, hr, hr'⟩ := h3 0
  obtain ⟨s, hs, hs'⟩ := h3 1
  have := hi (buf.set k 0) (buf.set k 1) (by simp)
  rw [hr, hs] at this
  have h4 := congrArg (fun l => l[k]?) this.2
  simp only [List.getElem?_take, if_pos h1, hr', hs'] at h4
  exact absurd h4 (by decide)

/-- **C99 fails** for every OPEN message with an FQDN capability, wherever in the list it is: the last two octets of the
capability are what the buffer held. -/
theorem C99_fqdn_leaks (m : BgpOpenMessage) (pre post : List BgpCapability) (h d : Bytes)
    (hm : m.caps = pre ++ .CapFQDN h d :: post) (buf r : Bytes) (n : Nat) (he : m.encodeTo buf = .ok (r, n)) :
    LeaksAt (paramsSize pre + 14 + h.length + d.length) m.encodeTo buf n ∧
    LeaksAt (paramsSize pre + 15 + h.length + d.length) m.encodeTo buf n := by
  have key : ∀ k, paramsSize pre + 14 + h.length + d.length ≤ k → k < paramsSize pre + 16 + h.length + d.length →
      LeaksAt k m.encodeTo buf n := by
    intro k hk hk'
    obtain ⟨h1, h2, -⟩ := open_fqdn_ok hm he
    refine ⟨by omega, by omega, fun o => ?_⟩
    obtain ⟨r', hr⟩ := blind_ok (blind_open m) he k o
    refine ⟨r', hr, ?_⟩
    rw [(open_fqdn_ok hm hr).2.2 k hk hk', List.getElem?_set_self (by omega)]
  exact ⟨key _ (by omega) (by omega), key _ (by omega) (by omega)⟩

-- two different octets of an old message go out in an OPEN message
example : (BgpOpenMessage.mk 1 180 0 [.CapFQDN [0x61] [0x62]]).encodeTo (List.replicate 18 0xaa) =
    .ok ([4, 0, 1, 0, 180, 0, 0, 0, 0, 8, 2, 6, 73, 0x61, 1, 0x62, 0xaa, 0xaa], 18) := by decide

/-- **C99** for OPEN messages, exactly: the old contents of the buffer do not show if and only if there is no FQDN capability,
or the message cannot be encoded into any buffer. -/
theorem C99_open_iff (m : BgpOpenMessage) :
    IgnoresOld m.encodeTo ↔ NoFqdn m.caps ∨ ∀ buf r n, m.encodeTo buf ≠ .ok (r, n) := by
  constructor
  · intro hi
    by_cases hc : NoFqdn m.caps
    · exact .inl hc
    · right
      intro buf r n he
      simp only [NoFqdn, ne_eq, not_forall, not_not] at hc
      obtain ⟨c, hc, h, d, rfl⟩ := hc
      obtain ⟨pre, post, hm⟩ := List.append_of_mem hc
      exact leak_not_ignores (C99_fqdn_leaks m pre post h d hm buf r n he).1 hi
  · rintro (h | h)
    · exact C99_ignores_old_partial.2.2.2.1 m h
    · refine ignores_of_fresh ⟨fun S a b hs => ?_⟩
      refine both_mono (both_with ((blind_open m).both S a b hs) (P := fun _ => False) fun r hr => h a r.1 r.2 hr) ?_
      rintro x y ⟨-, h⟩
      exact h.elim

/-- **C99** for attributes, exactly: the old contents of the buffer do not show if and only if the attribute is not an
AGGREGATOR. Of that, the whole value is what the buffer held. -/
theorem C99_attribute_iff (x : BgpAttrItem) (p : BgpSessionParams) :
    IgnoresOld (x.encodeTo p) ↔ ∀ v, x ≠ .AggregatorAS v := by
  refine ⟨fun hi v hv => ?_, fun h => C99_ignores_old_partial.2.1 x p h⟩
  subst hv
  have h1 := hi (List.replicate 9 0) (List.replicate 9 1) rfl
  unfold BgpAttrItem.encodeTo at h1
  rw [encodeBgpattr_eq _ _ _ (by simp [BgpAttrItem.attr, BgpAggregatorAS.attr, extended]),
    encodeBgpattr_eq _ _ _ (by simp [BgpAttrItem.attr, BgpAggregatorAS.attr, extended])] at h1
  cases hp : p.hasAs32bit <;>
    simp [BgpAttrItem.attr, BgpAggregatorAS.attr, extended, BgpAttrItem.encodeValue, BgpAggregatorAS.encodeTo, hp, maxValue,
      attrHeader, SameOutcome] at h1

/-- **C99 fails** for every UPDATE message with an AGGREGATOR behind attributes that are encoded as they should (C62): the
value of the AGGREGATOR, all of its octets, is what the buffer held. -/
theorem C99_aggregator_leaks (x : BgpUpdateMessage) (p : BgpSessionParams) (pre post : List BgpAttrItem) (v : BgpAggregatorAS)
    (hx : x.attrs = pre ++ .AggregatorAS v :: post) (hp : ∀ y ∈ pre, AttrFramed y) (buf r : Bytes) (n : Nat)
    (he : x.encodeTo p buf = .ok (r, n)) (hn : n ≤ buf.length) :
    ∃ s, ∀ i < (if p.hasAs32bit then 4 else 2), LeaksAt (s + i) (x.encodeTo p) buf n := by
  obtain ⟨b0, c, h1, h2, -⟩ := update_aggregator_ok hx hp he
  refine ⟨c + 3, fun i hi => ⟨by omega, by omega, fun o => ?_⟩⟩
  obtain ⟨r', hr⟩ := blind_ok (blind_update x p) he (c + 3 + i) o
  obtain ⟨b1, c1, h3, -, h4⟩ := update_aggregator_ok hx hp hr
  obtain ⟨b2, h5⟩ := blind_ok (blind_update _ p) h1 (c + 3 + i) o
  rw [h5] at h3
  cases h3
  exact ⟨r', hr, by rw [h4 _ (by omega) (by omega), List.getElem?_set_self (by omega)]⟩

-- four octets of an old message go out as an AGGREGATOR, behind an ORIGIN
example : (∀ y ∈ [BgpAttrItem.Origin ⟨.Igp⟩], AttrFramed y) ∧
    BgpUpdateMessage.encodeTo ⟨.None, .None, [.Origin ⟨.Igp⟩, .AggregatorAS ⟨1, 2⟩]⟩ { BgpSessionParams.new 1 180 .IPv4 0 [] with hasAs32bit := true }
      (List.replicate 15 0xaa) = .ok ([0, 0, 0, 11, 64, 1, 1, 0, 64, 7, 4, 0xaa, 0xaa, 0xaa, 0xaa], 15) :=
  ⟨by intro y hy; simp at hy; subst hy; trivial, by decide⟩

end Zbgp.Props
