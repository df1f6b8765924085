import Verif.Model.Script

/-! # script/examples.py

The templates are Python format strings; each is modelled as the function from the substituted strings to the formatted string. -/

namespace Verif.Examples

/-- script/examples.py:4, `msig_two_two`. -/
def msigTwoTwo (pk0 pk1 : PyStr) : PyStr := pystr "OP_2 " ++ pk0 ++ pystr " " ++ pk1 ++ pystr " OP_2 OP_CHECKMULTISIG"

/-- script/examples.py:7, `msig_two_two_stack_script`. -/
def msigTwoTwoStackScript (sig0 sig1 : PyStr) : PyStr := pystr "OP_0 " ++ sig0 ++ pystr " " ++ sig1

/-- script/examples.py:10, `p2pkh_script_sig`. -/
def p2pkhScriptSig (sig pk : PyStr) : PyStr := sig ++ pystr " " ++ pk

/-- script/examples.py:13, `p2pkh_script_pubkey`. -/
def p2pkhScriptPubkey (pk : PyStr) : PyStr := pystr "OP_DUP OP_HASH160 " ++ pk ++ pystr " OP_EQUALVERIFY OP_CHECKSIG"

/-- script/examples.py:16, `p2sh_script_pubkey`. -/
def p2shScriptPubkey (sh : PyStr) : PyStr := pystr "OP_HASH160 " ++ sh ++ pystr " OP_EQUAL"

/-- script/examples.py:20, `p2w`. -/
def p2w (x : PyStr) : PyStr := pystr "OP_0 " ++ x

/-- script/examples.py:23-32, `htlc_redeem_script`. -/
def htlcRedeemScript (secretHash pkh0 timeout pkh1 : PyStr) : PyStr :=
  pystr "OP_IF OP_SHA256 " ++ secretHash ++ pystr " OP_EQUALVERIFY OP_DUP OP_HASH160 " ++ pkh0 ++ pystr " OP_ELSE " ++ timeout ++
    pystr " OP_CHECKLOCKTIMEVERIFY OP_DROP OP_DUP OP_HASH160 " ++ pkh1 ++ pystr " OP_ENDIF OP_EQUALVERIFY OP_CHECKSIG"

/-- script/examples.py:36, `htlc_stack_script_execute`. -/
def htlcStackScriptExecute (sig pk secret : PyStr) : PyStr := sig ++ pystr " " ++ pk ++ pystr " " ++ secret ++ pystr " OP_TRUE"

/-- script/examples.py:40, `htlc_stack_script_refund`. -/
def htlcStackScriptRefund (sig pk : PyStr) : PyStr := sig ++ pystr " " ++ pk ++ pystr " OP_FALSE"

end Verif.Examples
