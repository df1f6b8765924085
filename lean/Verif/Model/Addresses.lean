import Verif.Model.Base58
import Verif.Model.Cashaddr
import Verif.Model.Script

/-! # encoding/addresses.py, and the output script builders of tx/tx_builder.py

The arguments are of the annotated types. An address may come out as Python's `None` when `bech32.encode` returns it, hence
the results of type `Option PyStr`. -/

namespace Verif.Addresses

/-- `riemann.network.SEGWIT_ENCODER.encode`. -/
def segwitEncode (E : Env) (data : Bytes) : Py (Option PyStr) :=
  match E.net.segwitEncoder with
  | .bech32 => Bech32.encode E.net data
  | .base58 => (Base58.encode E data).map some

/-- `riemann.network.SEGWIT_ENCODER.decode`. -/
def segwitDecode (E : Env) (s : PyStr) : Py Bytes :=
  match E.net.segwitEncoder with
  | .bech32 => Bech32.decode E.net s
  | .base58 => Base58.decode E s

/-- encoding/addresses.py:6-34, `_hash_to_sh_address`. -/
def hashToShAddress (E : Env) (scriptHash : Bytes) (witness cashaddr : Bool) : Py (Option PyStr) :=
  match E.net.cashaddrP2sh, cashaddr with
  | some p, true => (Cashaddr.encode E.net (p ++ scriptHash)).map some
  | _, _ =>
    if witness then segwitEncode E (E.net.p2wshPrefix ++ scriptHash)
    else (Base58.encode E (E.net.p2shPrefix ++ scriptHash)).map some

/-- encoding/addresses.py:37-61, `_ser_script_to_sh_address`. -/
def serScriptToShAddress (E : Env) (scriptBytes : Bytes) (witness cashaddr : Bool) : Py (Option PyStr) :=
  hashToShAddress E (if witness then E.H.sha256 scriptBytes else E.hash160 scriptBytes) witness cashaddr

/-- encoding/addresses.py:64-86, `make_sh_address`. -/
def makeShAddress (E : Env) (scriptString : PyStr) (witness : Bool := false) (cashaddr : Bool := true) : Py (Option PyStr) := do
  let scriptBytes ← serialize E.net scriptString
  serScriptToShAddress E scriptBytes witness cashaddr

/-- encoding/addresses.py:89-99. -/
def makeP2wshAddress (E : Env) (s : PyStr) : Py (Option PyStr) := makeShAddress E s true
/-- encoding/addresses.py:102-112. -/
def makeP2shAddress (E : Env) (s : PyStr) : Py (Option PyStr) := makeShAddress E s false
/-- encoding/addresses.py:115-126. -/
def makeLegacyP2shAddress (E : Env) (s : PyStr) : Py (Option PyStr) := makeShAddress E s false false

/-- encoding/addresses.py:129-156, `_make_pkh_address`. -/
def makePkhAddress' (E : Env) (pubkeyHash : Bytes) (witness cashaddr : Bool) : Py (Option PyStr) :=
  match E.net.cashaddrP2pkh, cashaddr with
  | some p, true => (Cashaddr.encode E.net (p ++ pubkeyHash)).map some
  | _, _ =>
    if witness then segwitEncode E (E.net.p2wpkhPrefix ++ pubkeyHash)
    else (Base58.encode E (E.net.p2pkhPrefix ++ pubkeyHash)).map some

/-- encoding/addresses.py:159-178, `make_pkh_address`. -/
def makePkhAddress (E : Env) (pubkey : Bytes) (witness : Bool := false) (cashaddr : Bool := true) : Py (Option PyStr) :=
  makePkhAddress' E (E.hash160 pubkey) witness cashaddr

/-- encoding/addresses.py:181-190. -/
def makeP2wpkhAddress (E : Env) (pubkey : Bytes) : Py (Option PyStr) := makePkhAddress E pubkey true
/-- encoding/addresses.py:193-202. -/
def makeP2pkhAddress (E : Env) (pubkey : Bytes) : Py (Option PyStr) := makePkhAddress E pubkey false
/-- encoding/addresses.py:205-214. -/
def makeLegacyP2pkhAddress (E : Env) (pubkey : Bytes) : Py (Option PyStr) := makePkhAddress E pubkey false false

/-- encoding/addresses.py:217-242, `parse`. -/
def parse (E : Env) (address : PyStr) : Py Bytes :=
  tryCatchPy (Base58.decode E address) (· = .valueError) <|
  tryCatchPy (segwitDecode E address) (fun _ => true) <|
  tryCatchPy (Cashaddr.decode E.net address) (fun _ => true) <|
  .error .valueError

/-- encoding/addresses.py:245-306, `to_output_script`. The locals `(prefix, parsed_hash, suffix)` are a triple; `find(None)`
raises TypeError, which skips the block. -/
def toOutputScript (E : Env) (address : PyStr) : Py Bytes := do
  let parsed ← parse E address
  if startsWith parsed E.net.p2wpkhPrefix ∧ parsed.length = 22 then .ok parsed
  else if startsWith parsed E.net.p2wshPrefix ∧ parsed.length = 34 then .ok parsed
  else
    let r : Bytes × Bytes × Bytes := ([], [], [])
    let r := match E.net.cashaddrP2sh with
      | none => r
      | some p => if startsWith parsed p ∧ parsed.length = p.length + 20 then
          (([0xa9, 0x14] : Bytes), parsed.drop E.net.p2shPrefix.length, ([0x87] : Bytes)) else r
    let r := match E.net.cashaddrP2pkh with
      | none => r
      | some p => if startsWith parsed p ∧ parsed.length = p.length + 20 then
          (([0x76, 0xa9, 0x14] : Bytes), parsed.drop E.net.p2pkhPrefix.length, ([0x88, 0xac] : Bytes)) else r
    let r := if startsWith parsed E.net.p2pkhPrefix ∧ parsed.length = E.net.p2pkhPrefix.length + 20
      then (([0x76, 0xa9, 0x14] : Bytes), parsed.drop E.net.p2pkhPrefix.length, ([0x88, 0xac] : Bytes)) else r
    let r := if startsWith parsed E.net.p2shPrefix ∧ parsed.length = E.net.p2shPrefix.length + 20
      then (([0xa9, 0x14] : Bytes), parsed.drop E.net.p2shPrefix.length, ([0x87] : Bytes)) else r
    if r.2.1 = [] then .error .valueError
    else .ok (r.1 ++ r.2.1 ++ r.2.2)

/-- encoding/addresses.py:309-342, `from_output_script`. A TypeError inside either `try` falls through to what follows. -/
def fromOutputScript (E : Env) (s : Bytes) (cashaddr : Bool := true) : Py (Option PyStr) :=
  let legacy : Py (Option PyStr) :=
    if s.length = 25 ∧ startsWith s [0x76, 0xa9, 0x14] then makePkhAddress' E (slice s 3 23) false cashaddr
    else if s.length = 23 ∧ startsWith s [0xa9, 0x14] then hashToShAddress E (slice s 2 22) false cashaddr
    else .error .valueError
  let pkh : Py (Option PyStr) :=
    if s.length = E.net.p2wpkhPrefix.length + 20 ∧ startsWith s E.net.p2wpkhPrefix then
      tryCatchPy (makePkhAddress' E (lastN s 20) true cashaddr) (· = .typeError) legacy
    else legacy
  if s.length = E.net.p2wshPrefix.length + 32 ∧ startsWith s E.net.p2wshPrefix then
    tryCatchPy (hashToShAddress E (lastN s 32) true cashaddr) (· = .typeError) pkh
  else pkh

/-- encoding/addresses.py:345-382, `parse_hash`. -/
def parseHash (E : Env) (address : PyStr) : Py Bytes := do
  let raw ← parse E address
  let legacy : Py Bytes :=
    if startsWith raw E.net.p2shPrefix then .ok (raw.drop E.net.p2shPrefix.length)
    else if startsWith raw E.net.p2pkhPrefix then .ok (raw.drop E.net.p2pkhPrefix.length)
    else .error .valueError
  let segwit : Py Bytes := match E.net.bech32Hrp with
    | none => legacy
    | some hrp =>
      if startsWith address hrp then
        if startsWith raw E.net.p2wshPrefix then .ok (raw.drop E.net.p2wshPrefix.length)
        else if startsWith raw E.net.p2wpkhPrefix then .ok (raw.drop E.net.p2wpkhPrefix.length)
        else legacy
      else legacy
  match E.net.cashaddrPrefix with
  | none => segwit
  | some pre =>
    if startsWith address pre then
      match E.net.cashaddrP2sh with
      | none => segwit
      | some ps =>
        if startsWith raw ps then .ok (raw.drop ps.length)
        else match E.net.cashaddrP2pkh with
          | none => segwit
          | some pk => if startsWith raw pk then .ok (raw.drop pk.length) else segwit
    else segwit

/-! ### tx/tx_builder.py: output scripts -/

/-- tx/tx_builder.py:9-31, `make_sh_script_pubkey`. -/
def makeShScriptPubkey (E : Env) (scriptBytes : Bytes) (witness : Bool) : Bytes :=
  if witness then E.net.p2wshPrefix ++ E.H.sha256 scriptBytes
  else [0xa9, 0x14] ++ E.hash160 scriptBytes ++ [0x87]

/-- tx/tx_builder.py:34-51, `make_sh_output_script`. -/
def makeShOutputScript (E : Env) (scriptString : PyStr) (witness : Bool := false) : Py Bytes := do
  check (¬ (witness ∧ ¬ E.net.segwit)) .valueError
  let scriptBytes ← serialize E.net scriptString
  .ok (makeShScriptPubkey E scriptBytes witness)

/-- tx/tx_builder.py:54-85, `make_pkh_output_script` (the type test of `pubkey` is met: it is bytes). -/
def makePkhOutputScript (E : Env) (pubkey : Bytes) (witness : Bool := false) : Py Bytes := do
  check (¬ (witness ∧ ¬ E.net.segwit)) .valueError
  let pubkeyHash := E.hash160 pubkey
  if witness then .ok (E.net.p2wpkhPrefix ++ pubkeyHash)
  else .ok ([0x76, 0xa9, 0x14] ++ pubkeyHash ++ [0x88, 0xac])

/-- tx/tx_builder.py:88-97. -/
def makeP2shOutputScript (E : Env) (s : PyStr) : Py Bytes := makeShOutputScript E s false
/-- tx/tx_builder.py:100-109. -/
def makeP2pkhOutputScript (E : Env) (pubkey : Bytes) : Py Bytes := makePkhOutputScript E pubkey false
/-- tx/tx_builder.py:112-122. -/
def makeP2wshOutputScript (E : Env) (s : PyStr) : Py Bytes := makeShOutputScript E s true
/-- tx/tx_builder.py:125-135. -/
def makeP2wpkhOutputScript (E : Env) (pubkey : Bytes) : Py Bytes := makePkhOutputScript E pubkey true

end Verif.Addresses
