import Verif.Model.Env
/-!
# Addresses and ergo trees, src/ergo/{address,ergo_tree}.{h,c}, src/ergo/network_id.h
-/
namespace Ergo

/-- `network_id_is_valid`, network_id.h:14-16. -/
def networkValid (n : UInt8) : Bool := n ≤ 252
/-- `network_id_is_mainnet`, network_id.h:6-8. -/
def networkMainnet (n : UInt8) : Bool := n = 0
/-- `network_id_is_supported`, network_id.h:18-20. -/
def networkSupported (n : UInt8) : Bool := networkMainnet n || n = 0x10

/-- Common tail of the address functions: body followed by 4 bytes of its hash
(address.c:44-52, 83-90). -/
def withChecksum (env : Env) (body : Bytes) : Bytes := body ++ (env.blake body).take 4

/-- `ergo_address_from_compressed_pubkey`, address.c:16-55,63-67. -/
def addressFromCompressed (env : Env) (network : UInt8) (pk : Bytes) : Option Bytes :=
  if networkValid network then some (withChecksum env ((1 + network) :: pk.take 33)) else none

/-- `ergo_address_from_pubkey`, address.c:16-61. -/
def addressFromPubkey (env : Env) (network : UInt8) (pk : Bytes) : Option Bytes :=
  if networkValid network then some (withChecksum env ((1 + network) :: compress pk)) else none

/-- `ergo_address_from_script_hash`, address.c:69-92. -/
def addressFromScriptHash (env : Env) (network : UInt8) (hash : Bytes) : Option Bytes :=
  if networkValid network then some (withChecksum env ((2 + network) :: hash.take 24)) else none

/-- `C_ERGO_TREE_P2PK_PREFIX`, ergo_tree.c:7. -/
def p2pkPrefix : Bytes := [0x00, 0x08, 0xcd]
/-- `C_ERGO_TREE_P2SH_PREFIX`, ergo_tree.c:10-13. -/
def p2shPrefix : Bytes :=
  [0x00, 0xea, 0x02, 0xd1, 0x93, 0xb4, 0xcb, 0xe4, 0xe3,
   0x01, 0x0e, 0x04, 0x00, 0x04, 0x30, 0x0e, 0x18]
/-- `C_ERGO_TREE_P2SH_SUFFIX`, ergo_tree.c:16. -/
def p2shSuffix : Bytes := [0xd4, 0x08, 0x01]
/-- `C_ERGO_TREE_MINERS_HASH_FEE_MAINNET`, ergo_tree.c:18-25 (returned for every network,
`ergo_tree_miners_fee_tree`, ergo_tree.c:74-83). -/
def minersFeeTree : Bytes :=
  [0x10, 0x05, 0x04, 0x00, 0x04, 0x00, 0x0e, 0x36, 0x10, 0x02, 0x04, 0xa0, 0x0b, 0x08, 0xcd,
   0x02, 0x79, 0xbe, 0x66, 0x7e, 0xf9, 0xdc, 0xbb, 0xac, 0x55, 0xa0, 0x62, 0x95, 0xce, 0x87,
   0x0b, 0x07, 0x02, 0x9b, 0xfc, 0xdb, 0x2d, 0xce, 0x28, 0xd9, 0x59, 0xf2, 0x81, 0x5b, 0x16,
   0xf8, 0x17, 0x98, 0xea, 0x02, 0xd1, 0x92, 0xa3, 0x9a, 0x8c, 0xc7, 0xa7, 0x01, 0x73, 0x00,
   0x73, 0x01, 0x10, 0x01, 0x02, 0x04, 0x02, 0xd1, 0x96, 0x83, 0x03, 0x01, 0x93, 0xa3, 0x8c,
   0xc7, 0xb2, 0xa5, 0x73, 0x00, 0x00, 0x01, 0x93, 0xc2, 0xb2, 0xa5, 0x73, 0x01, 0x00, 0x74,
   0x73, 0x02, 0x73, 0x03, 0x83, 0x01, 0x08, 0xcd, 0xee, 0xac, 0x93, 0xb1, 0xa5, 0x73, 0x04]

/-- `ergo_tree_generate_p2pk`, ergo_tree.c:36-46. -/
def treeGenerateP2pk (pk : Bytes) : Bytes := p2pkPrefix ++ compress pk

/-- `ergo_tree_parse_p2pk`, ergo_tree.c:48-58 (called with exactly 36 bytes). -/
def treeParseP2pk (tree : Bytes) : Option Bytes :=
  if tree.take 3 ≠ p2pkPrefix then none
  else if tree.getD 3 0 ≠ 0x02 ∧ tree.getD 3 0 ≠ 0x03 then none
  else some ((tree.drop 3).take 33)

/-- `ergo_tree_parse_p2sh`, ergo_tree.c:60-72 (called with exactly 44 bytes). -/
def treeParseP2sh (tree : Bytes) : Option Bytes :=
  if tree.take 17 ≠ p2shPrefix then none
  else if (tree.drop 41).take 3 ≠ p2shSuffix then none
  else some ((tree.drop 17).take 24)

end Ergo
