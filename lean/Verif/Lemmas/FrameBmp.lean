import Verif.Lemmas.FrameMsg
import Verif.Spec.Buffers

/-!
# What BMP encoders do behind the octets they report
-/

namespace Zbgp

open Spec

/-- an octet behind the ones written -/
def tgt (c : Bool) (o : Option U8) : Option U8 := if c then o.map fun _ => 0 else o

theorem tgt_false (o : Option U8) : tgt false o = o := rfl

theorem tgt_tgt (c d : Bool) (o : Option U8) : tgt c (tgt d o) = tgt (d || c) o := by
  cases c <;> cases d <;> cases o <;> simp [tgt]

/-- the encoder, in a buffer of at most 65535 octets, changes what is behind the octets it reports at most by clearing it -/
class Zeroed (c : outParam Bool) (f : Enc) : Prop where
  post : ∀ b, b.length ≤ 65535 → Post (f b) fun r => r.2 ≤ b.length ∧ r.1.length = b.length ∧ ∀ k, r.2 ≤ k → r.1[k]? = tgt c b[k]?

instance (priority := low) zeroed_framed {f : Enc} [h : Framed id f] : Zeroed false f where
  post b _ := h.post b

theorem zeroed_onFrom {c : Bool} {f : Enc} [hf : Zeroed c f] (b : Bytes) (s : Nat) (hb : b.length ≤ 65535) :
    Post (onFrom b s f) fun r => s + r.2 ≤ b.length ∧ r.1.length = b.length ∧ ∀ k, s + r.2 ≤ k → r.1[k]? = tgt c b[k]? := by
  unfold onFrom
  split
  · rename_i hs
    refine post_bind (hf.post _ (by simp only [List.length_drop]; omega)) ?_
    rintro ⟨r, n⟩ ⟨h1, h2, h3⟩
    simp only [List.length_drop] at h1 h2 h3
    refine post_ok ⟨by simp only; omega, by simp only [List.length_append, List.length_take]; omega, fun k hk => ?_⟩
    simp only at hk ⊢
    rw [List.getElem?_append_right (by simp only [List.length_take]; omega)]
    simp only [List.length_take, Nat.min_eq_left hs]
    rw [h3 _ (by omega), List.getElem?_drop]
    congr 2; omega
  · exact post_panic

/-- close a goal about the octets behind -/
macro "zero_end" : tactic => `(tactic| (refine ⟨?_, ?_, ?_⟩ <;> (try simp only [id] at *) <;> first | omega | (intro k hk; simp (disch := omega) only [*, tgt_tgt, tgt_false, Bool.or_false, Bool.false_or])))

instance zeroed_addr (a : IpAddr) : Zeroed (isV4 a) (encodeBmpAddr a) where
  post b hb := by
    unfold encodeBmpAddr
    split
    · exact post_err
    · split
      · refine post_bind (post_onFrom_sized _ _ _) ?_
        rintro ⟨r, n⟩ ⟨h1, h2, h3, h4⟩
        simp only [List.length_map] at *
        refine post_ok ⟨by simp only; omega, by simp only; omega, fun k hk => ?_⟩
        simp only at hk ⊢
        rw [h4 k (by omega), List.getElem?_map]
        rfl
      · frame_step
        refine post_ok ?_
        simp only [isV4]
        zero_end

theorem sized_addr (a : IpAddr) (b : Bytes) : Post (encodeBmpAddr a b) fun r => r.2 = 16 := by
  unfold encodeBmpAddr
  split
  · exact post_err
  · split
    · exact post_bind (post_onFrom_sized _ _ _) fun _ _ => post_ok rfl
    · exact post_bind (Framed.post _) fun _ _ => post_ok rfl

theorem sized_onFrom_addr (a : IpAddr) (b : Bytes) (s : Nat) : Post (onFrom b s (encodeBmpAddr a)) fun r => r.2 = 16 := by
  unfold onFrom
  split
  · exact post_bind (sized_addr a _) fun _ h => post_ok h
  · exact post_panic

instance zeroed_peer (h : BmpMessagePeerHeader) : Zeroed (isV4 h.peeraddress) h.encodeTo where
  post b hb := by
    unfold BmpMessagePeerHeader.encodeTo
    frame_step
    · exact post_err
    · frame_step
      frame_step
      frame_step
      refine post_bind (post_and (zeroed_onFrom _ _ (by omega)) (sized_onFrom_addr _ _ _)) ?_
      rintro ⟨_, _⟩ ⟨⟨_, _, _⟩, _⟩
      (try simp only at *)
      repeat frame_step
      zero_end

theorem sized_peer (h : BmpMessagePeerHeader) (b : Bytes) : Post (h.encodeTo b) fun r => r.2 = 42 := by
  unfold BmpMessagePeerHeader.encodeTo
  split
  · exact post_err
  · repeat' first
      | (refine post_bind (Q := fun _ => True) (fun _ _ => trivial) ?_; intro _ _)
    exact post_ok rfl

theorem prepare_len (b : Bytes) (ty : BgpMessageType) (n : Nat) (hn : n < 65536) :
    Post (BgpSessionParams.prepareMessageBuf b ty n) fun r => r.2 = n + 19 := by
  unfold BgpSessionParams.prepareMessageBuf
  split
  · exact post_err
  · repeat frame_step
    rename_i x hx _ _ _ _ _ _ _ _ _
    have : (BitVec.ofNat 16 n).toNat = n := by simp; omega
    have : (19 : U16).toNat = 19 := rfl
    simp only
    omega

theorem zeroed_embedded (ty : BgpMessageType) (enc : Enc) [hf : Framed id enc] (b : Bytes) (pos : Nat) (hb : b.length ≤ 65535) :
    Post (encodeEmbedded ty enc b pos) fun r => (r.2 ≤ b.length ∧ pos + 19 ≤ r.2) ∧ r.1.length = b.length ∧ ∀ k, r.2 ≤ k → r.1[k]? = b[k]? := by
  unfold encodeEmbedded
  frame_step
  rename_i b1 n h1 h2 h3
  refine post_bind (Q := fun r => r.2 = n + 19 ∧ r.1.length = b1.length ∧ ∀ k, pos + (n + 19) ≤ k → r.1[k]? = b1[k]?) ?_ ?_
  · unfold onFrom
    split
    · refine post_bind (post_and (post_prepare _ _ _) (prepare_len _ _ _ (by omega))) ?_
      rintro ⟨r, m⟩ ⟨⟨g1, g2, g3, g4, g5⟩, g6⟩
      simp only [List.length_drop] at *
      refine post_ok ⟨g6, by simp only [List.length_append, List.length_take]; omega, fun k hk => ?_⟩
      simp only at hk ⊢
      rw [List.getElem?_append_right (by simp only [List.length_take]; omega)]
      simp only [List.length_take]
      rw [g5 _ (by omega), List.getElem?_drop]
      congr 1; omega
    · exact post_panic
  · rintro ⟨_, _⟩ ⟨_, _, _⟩
    refine post_ok ?_
    zero_end

instance zeroed_routeMonitoring (x : BmpMessageRouteMonitoring) [Framed id (x.update.encodeTo (.ofPeerHeader x.peer))] :
    Zeroed (isV4 x.peer.peeraddress) x.encodeTo where
  post b hb := by
    unfold BmpMessageRouteMonitoring.encodeTo
    frame_step
    · exact post_err
    · refine post_bind (Zeroed.post _ hb) ?_
      rintro ⟨_, _⟩ ⟨_, _, _⟩
      (try simp only at *)
      refine post_mono (zeroed_embedded _ _ _ _ (by omega)) ?_
      rintro ⟨_, _⟩ ⟨⟨_, _⟩, _, _⟩
      zero_end

instance zeroed_peerUp (x : BmpMessagePeerUp) : Zeroed (isV4 x.peer.peeraddress || isV4 x.localaddress) x.encodeTo where
  post b hb := by
    unfold BmpMessagePeerUp.encodeTo
    frame_step
    · exact post_err
    · refine post_bind (Zeroed.post _ hb) ?_
      rintro ⟨_, _⟩ ⟨_, _, _⟩
      (try simp only at *)
      refine post_bind (post_and (zeroed_onFrom _ _ (by omega)) (sized_onFrom_addr _ _ _)) ?_
      rintro ⟨_, _⟩ ⟨⟨_, _, _⟩, _⟩
      (try simp only at *)
      repeat frame_step
      refine post_bind (zeroed_embedded _ _ _ _ (by omega)) ?_
      rintro ⟨_, _⟩ ⟨⟨_, _⟩, _, _⟩
      (try simp only at *)
      refine post_mono (zeroed_embedded _ _ _ _ (by omega)) ?_
      rintro ⟨_, _⟩ ⟨⟨_, _⟩, _, _⟩
      zero_end

theorem zeroed_notification (code : U8) (m : BgpNotificationMessage) (b : Bytes) (pos : Nat) (hb : b.length ≤ 65535) :
    Post (BmpMessagePeerDown.encodeNotification code m b pos) fun r => (r.2 ≤ b.length ∧ pos ≤ r.2) ∧ r.1.length = b.length ∧
      ∀ k, r.2 ≤ k → r.1[k]? = b[k]? := by
  unfold BmpMessagePeerDown.encodeNotification
  frame_step
  frame_step
  frame_step
  · exact post_err
  · refine post_mono (zeroed_embedded _ _ _ _ (by omega)) ?_
    rintro ⟨_, _⟩ ⟨⟨_, _⟩, _, _⟩
    zero_end

instance zeroed_peerDown (x : BmpMessagePeerDown) : Zeroed (isV4 x.peer.peeraddress) x.encodeTo where
  post b hb := by
    unfold BmpMessagePeerDown.encodeTo
    frame_step
    · exact post_err
    · refine post_bind (Zeroed.post _ hb) ?_
      rintro ⟨_, _⟩ ⟨_, _, _⟩
      (try simp only at *)
      frame_step
      · refine post_mono (zeroed_notification _ _ _ _ (by omega)) ?_
        rintro ⟨_, _⟩ ⟨⟨_, _⟩, _, _⟩
        zero_end
      · repeat' frame_step
        zero_end
      · refine post_mono (zeroed_notification _ _ _ _ (by omega)) ?_
        rintro ⟨_, _⟩ ⟨⟨_, _⟩, _, _⟩
        zero_end
      · repeat' frame_step
        zero_end
      · repeat' frame_step
        zero_end

theorem zeroed_typed (code : U8) (enc : Enc) {c : Bool} [Zeroed c enc] : Zeroed c (BmpMessage.encodeTyped code enc) where
  post b hb := by
    unfold BmpMessage.encodeTyped
    frame_step
    refine post_bind (zeroed_onFrom _ _ (by omega)) ?_
    rintro ⟨_, _⟩ ⟨_, _, _⟩
    refine post_ok ?_
    zero_end

theorem zeroed_iff {c : Bool} {f : Enc} (h : Zeroed c f) (b b' : Bytes) (n : Nat) (hb : b.length ≤ 65535)
    (he : f b = .ok (b', n)) : n ≤ b.length ∧ b'.length = b.length ∧ b'.drop n = behind c (b.drop n) := by
  obtain ⟨h1, h2, h3⟩ := h.post b hb _ he
  simp only at h1 h2 h3
  refine ⟨h1, h2, ?_⟩
  apply List.ext_getElem?
  intro k
  rw [List.getElem?_drop, h3 _ (by omega)]
  cases c
  · simp [tgt, behind]
  · simp only [tgt, behind, if_true]
    rw [← List.map_const', List.getElem?_map, List.getElem?_drop]

/-- messages whose length does not fit the header -/
theorem embedded_wraps {enc : Enc} {w : Bytes} (ty : BgpMessageType) (h : Writes enc w) (hw : w.length % 65536 ≤ 65516)
    (p t : Bytes) (ht : 19 + w.length ≤ t.length) :
    encodeEmbedded ty enc (p ++ t) p.length =
      .ok (p ++ (header ty (w.length % 65536) ++ (w ++ t.drop (19 + w.length))), p.length + (w.length % 65536 + 19)) := by
  obtain ⟨m, t, rfl, hm, -⟩ := exists_split 19 (show 19 ≤ t.length by omega)
  unfold encodeEmbedded
  have e : p ++ (m ++ t) = (p ++ m) ++ t := by simp
  simp only [List.length_append, hm] at ht
  rw [e, cur_clears (clears_false.2 h) _ _ _ (by simp [hm]) (by omega)]
  simp only [Res.ok_bind]
  rw [show p ++ m ++ w ++ behind false (t.drop w.length) = p ++ (m ++ (w ++ t.drop w.length)) by simp [behind],
    onFrom_append _ _ _ _ rfl, prepare_eq _ _ _ (by simp [hm]; omega), if_pos hw]
  simp only [Res.ok_bind]
  have ed : (m ++ t).drop (19 + w.length) = t.drop w.length := by
    rw [← List.drop_drop, List.drop_left' hm]
  rw [List.drop_left' hm, ed]

end Zbgp
