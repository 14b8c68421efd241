import Verif.Model.Address
/-!
Where the contracts keep their state: the keys of the database behind `VarDB`, `DictDB`, `ArrayDB` and the converter's `ConnectorDict`.

The containers belong to the ICON platform (`iconservice`, `iconscore/icon_container_db.py` and `database/db.py`), not to `/repo`; modelled is
how they form keys: parts joined by `|` - the address of the SCORE, the prefix of the container (`\x02` for a `VarDB`; `\x01|name` for a
`DictDB`; `\x00|name` for an `ArrayDB`), the key in the container. The platform then hashes the key with SHA3-256; that no two keys of a
ledger have the same hash is not modelled.
-/
namespace Verif.Layout

/-- `k` bytes of `n`, most significant first (Python: `int.to_bytes(k, 'big')`). -/
def bigEndian : Nat → Nat → List UInt8
  | 0, _ => []
  | k + 1, n => bigEndian k (n / 256) ++ [UInt8.ofNat (n % 256)]

/-- `Address.to_bytes()` (platform; used in converter.py:66 and by `DictDB` for keys that are addresses): 20 bytes, for contracts with a
byte 1 in front. -/
def addrBytes (a : Addr) : List UInt8 := (if a.isContract then [1] else []) ++ bigEndian 20 a.body.toNat

/-- `int_to_bytes` (platform; the key of an element of an `ArrayDB`), for numbers that are not negative: two's complement with as few bytes
as hold it, `(bit_length + 8) // 8`. -/
def intBytes (i : Nat) : List UInt8 := bigEndian ((if i = 0 then 0 else Nat.log2 i + 1) / 8 + 1) i

/-- The bytes of a name written in the code (ASCII). -/
def ascii (s : String) : List UInt8 := s.toList.map fun c => UInt8.ofNat c.toNat

/-- The byte `|` that joins the parts of a key (platform, and converter.py:66). -/
def bar : List UInt8 := [0x7c]

/-- The database key of a `VarDB` (platform). `pre` is the prefix of the database it is created in. -/
def varKey (pre : List UInt8) (name : String) : List UInt8 := pre ++ bar ++ [2] ++ bar ++ ascii name

/-- The database key of an entry of a `DictDB` (platform). -/
def dictKey (pre : List UInt8) (name : String) (key : List UInt8) : List UInt8 := pre ++ bar ++ ([1] ++ bar ++ ascii name) ++ bar ++ key

/-- The database key of the length of an `ArrayDB` (platform). -/
def sizeKey (pre : List UInt8) (name : String) : List UInt8 := pre ++ bar ++ ([0] ++ bar ++ ascii name) ++ bar ++ ascii "size"

/-- The database key of an element of an `ArrayDB` (platform). -/
def itemKey (pre : List UInt8) (name : String) (i : Nat) : List UInt8 := pre ++ bar ++ ([0] ++ bar ++ ascii name) ++ bar ++ intBytes i

/-- `CONNECTOR_DB_PREFIX`, converter.py:29. -/
def CONNECTOR_DB_PREFIX : List UInt8 := [3]

/-- The prefix of the database of a connector, `ConnectorDict.__getitem__`, converter.py:64-66:
`self._db.get_sub_db(b'|'.join([CONNECTOR_DB_PREFIX, key.to_bytes()]))`. -/
def connectorPrefix (pre : List UInt8) (a : Addr) : List UInt8 := pre ++ bar ++ (CONNECTOR_DB_PREFIX ++ bar ++ addrBytes a)

/-- The fields of a connector, `Connector.__init__`, converter.py:42-52. -/
inductive ConnectorField where
  | virtualBalance | weight | isVirtual | isPurchaseEnabled | isSet
  deriving DecidableEq, Repr

/-- The pieces of state of the contracts: the fields of `TokSt`, `OwnSt`, `FlexSt`, `ConvSt`, the entries of a registry and of the
network's list of ICX tokens. -/
inductive Field where
  | name | symbol | supply | decimals | balance (a : Addr)
  | owner | newOwner
  | version | transferable
  | token | manager | newManager
  | allowRegistryUpdate | prevRegistry | registry | totalWeight | maxFee | fee | enabled
  | connectorCount | connectorAt (i : Nat) | connector (a : Addr) (f : ConnectorField)
  | registered (name : List UInt8)
  | isIcxToken (a : Addr)
  deriving DecidableEq, Repr

/-- The names of the fields of a connector, converter.py:44-52. -/
def ConnectorField.name : ConnectorField → String
  | .virtualBalance => "virtual_balance"
  | .weight => "weight"
  | .isVirtual => "is_virtual_balance_enabled"
  | .isPurchaseEnabled => "is_purchase_enabled"
  | .isSet => "is_set"

/-- The key of a piece of state of a SCORE in whose database the keys begin with `pre`. -/
def fieldKey (pre : List UInt8) : Field → List UInt8
  -- irc_token.py:30-46
  | .name => varKey pre "name"
  | .symbol => varKey pre "symbol"
  | .supply => varKey pre "total_supply"
  | .decimals => varKey pre "decimals"
  | .balance a => dictKey pre "balances" (addrBytes a)
  -- owned.py:31-32
  | .owner => varKey pre "prev_owner"
  | .newOwner => varKey pre "new_owner"
  -- flexible_token.py:43-44
  | .version => varKey pre "version"
  | .transferable => varKey pre "transfer_possibility"
  -- flexible_token_controller.py:43
  | .token => varKey pre "token"
  -- managed.py:34-35
  | .manager => varKey pre "manager"
  | .newManager => varKey pre "new_manager"
  -- converter.py:159-176
  | .allowRegistryUpdate => varKey pre "allow_registry_update"
  | .prevRegistry => varKey pre "prev_registry"
  | .registry => varKey pre "registry"
  | .connectorCount => sizeKey pre "connector_tokens"
  | .connectorAt i => itemKey pre "connector_tokens" i
  | .totalWeight => varKey pre "total_connector_weight"
  | .maxFee => varKey pre "max_conversion_fee"
  | .fee => varKey pre "conversion_fee"
  | .enabled => varKey pre "conversions_enabled"
  | .connector a f => varKey (connectorPrefix pre a) f.name
  -- score_registry.py:33
  | .registered n => dictKey pre "score_address" n
  -- network.py:40
  | .isIcxToken a => dictKey pre "icx_tokens" (addrBytes a)

/-- The key of a piece of state of the SCORE at address `A`. -/
def key (A : Addr) (f : Field) : List UInt8 := fieldKey (addrBytes A) f

end Verif.Layout
