import Verif.Spec.UpdateReads
import Verif.Spec.OpenReads

/-!
# What a decode that fails leaves in the message object

Only the data types of the model are used, none of its functions.
-/

namespace Zbgp.Spec

open Zbgp

/-- The message begins with a size and as many octets `w`, and something follows. -/
def Withdrawn (buf w rest : Bytes) : Prop := buf = be 2 w.length ++ w ++ rest ∧ w.length ≤ 65535 ∧ rest ≠ []

/-- What follows the withdrawn prefixes begins with a size of attributes that are all in the message. -/
def SizedAttrs (rest : Bytes) (n : Nat) (rest' : Bytes) : Prop := rest = be 2 n ++ rest' ∧ n ≤ 65535 ∧ n ≤ rest'.length

/-- The attributes `l` are the first ones in the first `n` octets of `b`, and behind them there is no further attribute, within
these octets, that can be read. -/
def FirstAttrs (p : BgpSessionParams) (n : Nat) (b : Bytes) (l : List BgpAttrItem) : Prop :=
  ∃ a t, b = a ++ t ∧ a.length ≤ n ∧ AttrsRead (ValueRead p) a l ∧
    ¬ ∃ r t' x, t = rawWire r ++ t' ∧ RawWF r ∧ a.length + (rawWire r).length ≤ n ∧ ValueRead p r.code r.flags r.value x

/-- What an UPDATE message that is not read leaves in an object that was `old`. -/
inductive UpdateLeft (p : BgpSessionParams) (old : BgpUpdateMessage) (buf : Bytes) : BgpUpdateMessage → Prop
  /-- the withdrawn prefixes cannot be read: nothing changes -/
  | untouched (h : ¬ ∃ w rest wd, Withdrawn buf w rest ∧ NlriIs p w wd) : UpdateLeft p old buf old
  /-- the withdrawn prefixes are read, the size of the attributes is not in the message or too large: only the withdrawn
  prefixes change -/
  | withdraws (w rest : Bytes) (wd : BgpAddrs) (hw : Withdrawn buf w rest) (hd : NlriIs p w wd)
      (h : ¬ ∃ n rest', SizedAttrs rest n rest') : UpdateLeft p old buf { old with withdraws := wd }
  /-- otherwise all attributes that can be read are put behind those that were there -/
  | attrs (w rest : Bytes) (wd : BgpAddrs) (n : Nat) (rest' : Bytes) (l : List BgpAttrItem) (hw : Withdrawn buf w rest)
      (hd : NlriIs p w wd) (hs : SizedAttrs rest n rest') (ha : FirstAttrs p n rest' l) :
      UpdateLeft p old buf { old with withdraws := wd, attrs := old.attrs ++ l }

/-- The capabilities `l` are the first ones in the parameter `body`, and behind them there is something that is none. -/
def FirstCaps (body : Bytes) (l : List BgpCapability) : Prop :=
  ∃ b t, body = b ++ t ∧ CapsRead b l ∧ t ≠ [] ∧
    ¬ ∃ (code : U8) (data rest : Bytes) (o : Option BgpCapability), t = tlv code.toNat data ++ rest ∧ data.length ≤ 255 ∧
      CapRead code data o

/-- The capabilities that the optional parameters begin with, up to the first thing that cannot be read. -/
inductive ParamsLeft : Bytes → List BgpCapability → Prop
  /-- the end -/
  | done (b : Bytes) (h : b.length ≤ 1) : ParamsLeft b []
  /-- a parameter that is read -/
  | param (body rest : Bytes) (l l' : List BgpCapability) (hl : body.length ≤ 255) (h : CapsRead body l)
      (hr : ParamsLeft rest l') : ParamsLeft (capParam body ++ rest) (l ++ l')
  /-- a parameter of another type -/
  | other (t n : U8) (rest : Bytes) (h : t.toNat ≠ 2) : ParamsLeft (t :: n :: rest) []
  /-- a parameter that is longer than the message -/
  | cut (n : U8) (rest : Bytes) (h : rest.length < n.toNat) : ParamsLeft (2 :: n :: rest) []
  /-- a parameter in which not all can be read -/
  | part (body rest : Bytes) (l : List BgpCapability) (hl : body.length ≤ 255) (h : FirstCaps body l) :
      ParamsLeft (capParam body ++ rest) l

/-- What an OPEN message leaves in an object that was `old`. -/
inductive OpenLeft (old : BgpOpenMessage) (buf : Bytes) : BgpOpenMessage → Prop
  /-- too short or of another version: nothing changes -/
  | untouched (h : buf.length < 10 ∨ buf.head? ≠ some 4) : OpenLeft old buf old
  /-- otherwise nothing of the old contents is left -/
  | params (as hold : U16) (rid : IPv4) (len : U8) (params : Bytes) (caps : List BgpCapability)
      (hb : buf = be 1 4 ++ (be 2 as.toNat ++ (be 2 hold.toNat ++ (be 4 rid.toNat ++ (len :: params)))))
      (hc : ParamsLeft params caps) : OpenLeft old buf ⟨BitVec.ofNat 32 as.toNat, hold, rid, caps⟩

end Zbgp.Spec
