import Verif.Proofs.Source.Updates
/-!
C77: the storage the contracts declare, and what their methods rely on.
-/
set_option autoImplicit false
namespace Verif.Props
open Verif Src

/-- The classes that are deployed. -/
def deployed : List String := ["IRCToken", "FlexibleToken", "IcxToken", "ScoreRegistry", "Converter", "Network"]

/-- What it means that a piece of the ledger is kept in a storage object: its kind, the type of its values, and the database keys of `Layout.lean` being those of
the platform's container with this name. -/
def Kept (s : Slot) : Src.Field → Prop
  | .owner => s.container = "VarDB" ∧ s.type = "Address" ∧ ∀ pre, Layout.fieldKey pre .owner = Layout.varKey pre s.key
  | .newOwner => s.container = "VarDB" ∧ s.type = "Address" ∧ ∀ pre, Layout.fieldKey pre .newOwner = Layout.varKey pre s.key
  | .manager => s.container = "VarDB" ∧ s.type = "Address" ∧ ∀ pre, Layout.fieldKey pre .manager = Layout.varKey pre s.key
  | .newManager => s.container = "VarDB" ∧ s.type = "Address" ∧ ∀ pre, Layout.fieldKey pre .newManager = Layout.varKey pre s.key
  | .name => s.container = "VarDB" ∧ s.type = "str" ∧ ∀ pre, Layout.fieldKey pre .name = Layout.varKey pre s.key
  | .symbol => s.container = "VarDB" ∧ s.type = "str" ∧ ∀ pre, Layout.fieldKey pre .symbol = Layout.varKey pre s.key
  | .decimals => s.container = "VarDB" ∧ s.type = "int" ∧ ∀ pre, Layout.fieldKey pre .decimals = Layout.varKey pre s.key
  | .totalSupply => s.container = "VarDB" ∧ s.type = "int" ∧ ∀ pre, Layout.fieldKey pre .supply = Layout.varKey pre s.key
  | .balances => s.container = "DictDB" ∧ s.type = "int" ∧
      ∀ pre a, Layout.fieldKey pre (.balance a) = Layout.dictKey pre s.key (Layout.addrBytes a)
  | .version => s.container = "VarDB" ∧ s.type = "str" ∧ ∀ pre, Layout.fieldKey pre .version = Layout.varKey pre s.key
  | .transferPossibility => s.container = "VarDB" ∧ s.type = "bool" ∧ ∀ pre, Layout.fieldKey pre .transferable = Layout.varKey pre s.key
  | .token => s.container = "VarDB" ∧ s.type = "Address" ∧ ∀ pre, Layout.fieldKey pre .token = Layout.varKey pre s.key
  | .allowRegistryUpdate => s.container = "VarDB" ∧ s.type = "bool" ∧ ∀ pre, Layout.fieldKey pre .allowRegistryUpdate = Layout.varKey pre s.key
  | .prevRegistry => s.container = "VarDB" ∧ s.type = "Address" ∧ ∀ pre, Layout.fieldKey pre .prevRegistry = Layout.varKey pre s.key
  | .registry => s.container = "VarDB" ∧ s.type = "Address" ∧ ∀ pre, Layout.fieldKey pre .registry = Layout.varKey pre s.key
  | .connectorTokens => s.container = "ArrayDB" ∧ s.type = "Address" ∧
      ∀ pre, Layout.fieldKey pre .connectorCount = Layout.sizeKey pre s.key ∧ ∀ i, Layout.fieldKey pre (.connectorAt i) = Layout.itemKey pre s.key i
  | .totalConnectorWeight => s.container = "VarDB" ∧ s.type = "int" ∧ ∀ pre, Layout.fieldKey pre .totalWeight = Layout.varKey pre s.key
  | .maxConversionFee => s.container = "VarDB" ∧ s.type = "int" ∧ ∀ pre, Layout.fieldKey pre .maxFee = Layout.varKey pre s.key
  | .conversionFee => s.container = "VarDB" ∧ s.type = "int" ∧ ∀ pre, Layout.fieldKey pre .fee = Layout.varKey pre s.key
  | .conversionsEnabled => s.container = "VarDB" ∧ s.type = "bool" ∧ ∀ pre, Layout.fieldKey pre .enabled = Layout.varKey pre s.key
  | .connectors => s.container = "ConnectorDict"
  | .scoreAddress => s.container = "DictDB" ∧ s.type = "Address" ∧
      ∀ pre n, Layout.fieldKey pre (.registered n) = Layout.dictKey pre s.key n
  | .icxTokens => s.container = "DictDB" ∧ s.type = "bool" ∧
      ∀ pre a, Layout.fieldKey pre (.isIcxToken a) = Layout.dictKey pre s.key (Layout.addrBytes a)

/-- The field of `Layout.lean` a field of a connector is. -/
def connectorField : CField → Layout.ConnectorField
  | .virtualBalance => .virtualBalance
  | .weight => .weight
  | .isVirtual => .isVirtual
  | .isPurchaseEnabled => .isPurchaseEnabled
  | .isSet => .isSet

/-- The type of a field of a connector. -/
def connectorType : CField → String
  | .virtualBalance => "int"
  | .weight => "int"
  | .isVirtual => "bool"
  | .isPurchaseEnabled => "bool"
  | .isSet => "bool"

theorem slots_IRCToken : slots "IRCToken" = some [("_name", ⟨"VarDB", "name", "str"⟩),
    ("_symbol", ⟨"VarDB", "symbol", "str"⟩),
    ("_total_supply", ⟨"VarDB", "total_supply", "int"⟩),
    ("_decimals", ⟨"VarDB", "decimals", "int"⟩),
    ("_balances", ⟨"DictDB", "balances", "int"⟩)] := by
  rw [slots, mro_IRCToken]; krefl
theorem slots_FlexibleToken : slots "FlexibleToken" = some [("_owner", ⟨"VarDB", "prev_owner", "Address"⟩),
    ("_new_owner", ⟨"VarDB", "new_owner", "Address"⟩),
    ("_name", ⟨"VarDB", "name", "str"⟩),
    ("_symbol", ⟨"VarDB", "symbol", "str"⟩),
    ("_total_supply", ⟨"VarDB", "total_supply", "int"⟩),
    ("_decimals", ⟨"VarDB", "decimals", "int"⟩),
    ("_balances", ⟨"DictDB", "balances", "int"⟩),
    ("_version", ⟨"VarDB", "version", "str"⟩),
    ("_transfer_possibility", ⟨"VarDB", "transfer_possibility", "bool"⟩)] := by
  rw [slots, mro_FlexibleToken]; krefl
theorem slots_IcxToken : slots "IcxToken" = some [("_owner", ⟨"VarDB", "prev_owner", "Address"⟩),
    ("_new_owner", ⟨"VarDB", "new_owner", "Address"⟩),
    ("_name", ⟨"VarDB", "name", "str"⟩),
    ("_symbol", ⟨"VarDB", "symbol", "str"⟩),
    ("_total_supply", ⟨"VarDB", "total_supply", "int"⟩),
    ("_decimals", ⟨"VarDB", "decimals", "int"⟩),
    ("_balances", ⟨"DictDB", "balances", "int"⟩)] := by
  rw [slots, mro_IcxToken]; krefl
theorem slots_ScoreRegistry : slots "ScoreRegistry" = some [("_owner", ⟨"VarDB", "prev_owner", "Address"⟩),
    ("_new_owner", ⟨"VarDB", "new_owner", "Address"⟩),
    ("_score_address", ⟨"DictDB", "score_address", "Address"⟩)] := by
  rw [slots, mro_ScoreRegistry]; krefl
theorem slots_Converter : slots "Converter" = some [("_owner", ⟨"VarDB", "prev_owner", "Address"⟩),
    ("_new_owner", ⟨"VarDB", "new_owner", "Address"⟩),
    ("_manager", ⟨"VarDB", "manager", "Address"⟩),
    ("_new_manager", ⟨"VarDB", "new_manager", "Address"⟩),
    ("_token", ⟨"VarDB", "token", "Address"⟩),
    ("_allow_registry_update", ⟨"VarDB", "allow_registry_update", "bool"⟩),
    ("_prev_registry", ⟨"VarDB", "prev_registry", "Address"⟩),
    ("_registry", ⟨"VarDB", "registry", "Address"⟩),
    ("_connector_tokens", ⟨"ArrayDB", "connector_tokens", "Address"⟩),
    ("_total_connector_weight", ⟨"VarDB", "total_connector_weight", "int"⟩),
    ("_max_conversion_fee", ⟨"VarDB", "max_conversion_fee", "int"⟩),
    ("_conversion_fee", ⟨"VarDB", "conversion_fee", "int"⟩),
    ("_conversions_enabled", ⟨"VarDB", "conversions_enabled", "bool"⟩),
    ("_connectors", ⟨"ConnectorDict", "", ""⟩)] := by
  rw [slots, mro_Converter]; krefl
theorem slots_Network : slots "Network" = some [("_owner", ⟨"VarDB", "prev_owner", "Address"⟩),
    ("_new_owner", ⟨"VarDB", "new_owner", "Address"⟩),
    ("_icx_tokens", ⟨"DictDB", "icx_tokens", "bool"⟩)] := by
  rw [slots, mro_Network]; krefl

/-- C77, storage: `__init__` of every deployed class, with those it calls, makes storage objects under different attributes; each is the piece of the ledger its attribute
stands for, of the right kind and type, under the database key of the layout (C73). -/
theorem C77_storage (c : String) (hc : c ∈ deployed) : ∃ l, slots c = some l ∧ (l.map Prod.fst).Nodup ∧
    ∀ p ∈ l, ∃ f, fields.lookup p.1 = some f ∧ Kept p.2 f := by
  simp only [deployed, List.mem_cons, List.not_mem_nil, or_false] at hc
  rcases hc with rfl | rfl | rfl | rfl | rfl | rfl
  · refine ⟨_, slots_IRCToken, by decide, ?_⟩
    simp only [List.forall_mem_cons]
    exact ⟨⟨.name, fields__name, rfl, rfl, fun _ => rfl⟩,
      ⟨.symbol, fields__symbol, rfl, rfl, fun _ => rfl⟩,
      ⟨.totalSupply, fields__total_supply, rfl, rfl, fun _ => rfl⟩,
      ⟨.decimals, fields__decimals, rfl, rfl, fun _ => rfl⟩,
      ⟨.balances, fields__balances, rfl, rfl, fun _ _ => rfl⟩, fun _ h => absurd h List.not_mem_nil⟩
  · refine ⟨_, slots_FlexibleToken, by decide, ?_⟩
    simp only [List.forall_mem_cons]
    exact ⟨⟨.owner, fields__owner, rfl, rfl, fun _ => rfl⟩,
      ⟨.newOwner, fields__new_owner, rfl, rfl, fun _ => rfl⟩,
      ⟨.name, fields__name, rfl, rfl, fun _ => rfl⟩,
      ⟨.symbol, fields__symbol, rfl, rfl, fun _ => rfl⟩,
      ⟨.totalSupply, fields__total_supply, rfl, rfl, fun _ => rfl⟩,
      ⟨.decimals, fields__decimals, rfl, rfl, fun _ => rfl⟩,
      ⟨.balances, fields__balances, rfl, rfl, fun _ _ => rfl⟩,
      ⟨.version, fields__version, rfl, rfl, fun _ => rfl⟩,
      ⟨.transferPossibility, fields__transfer_possibility, rfl, rfl, fun _ => rfl⟩, fun _ h => absurd h List.not_mem_nil⟩
  · refine ⟨_, slots_IcxToken, by decide, ?_⟩
    simp only [List.forall_mem_cons]
    exact ⟨⟨.owner, fields__owner, rfl, rfl, fun _ => rfl⟩,
      ⟨.newOwner, fields__new_owner, rfl, rfl, fun _ => rfl⟩,
      ⟨.name, fields__name, rfl, rfl, fun _ => rfl⟩,
      ⟨.symbol, fields__symbol, rfl, rfl, fun _ => rfl⟩,
      ⟨.totalSupply, fields__total_supply, rfl, rfl, fun _ => rfl⟩,
      ⟨.decimals, fields__decimals, rfl, rfl, fun _ => rfl⟩,
      ⟨.balances, fields__balances, rfl, rfl, fun _ _ => rfl⟩, fun _ h => absurd h List.not_mem_nil⟩
  · refine ⟨_, slots_ScoreRegistry, by decide, ?_⟩
    simp only [List.forall_mem_cons]
    exact ⟨⟨.owner, fields__owner, rfl, rfl, fun _ => rfl⟩,
      ⟨.newOwner, fields__new_owner, rfl, rfl, fun _ => rfl⟩,
      ⟨.scoreAddress, fields__score_address, rfl, rfl, fun _ _ => rfl⟩, fun _ h => absurd h List.not_mem_nil⟩
  · refine ⟨_, slots_Converter, by decide, ?_⟩
    simp only [List.forall_mem_cons]
    exact ⟨⟨.owner, fields__owner, rfl, rfl, fun _ => rfl⟩,
      ⟨.newOwner, fields__new_owner, rfl, rfl, fun _ => rfl⟩,
      ⟨.manager, fields__manager, rfl, rfl, fun _ => rfl⟩,
      ⟨.newManager, fields__new_manager, rfl, rfl, fun _ => rfl⟩,
      ⟨.token, fields__token, rfl, rfl, fun _ => rfl⟩,
      ⟨.allowRegistryUpdate, fields__allow_registry_update, rfl, rfl, fun _ => rfl⟩,
      ⟨.prevRegistry, fields__prev_registry, rfl, rfl, fun _ => rfl⟩,
      ⟨.registry, fields__registry, rfl, rfl, fun _ => rfl⟩,
      ⟨.connectorTokens, fields__connector_tokens, rfl, rfl, fun _ => ⟨rfl, fun _ => rfl⟩⟩,
      ⟨.totalConnectorWeight, fields__total_connector_weight, rfl, rfl, fun _ => rfl⟩,
      ⟨.maxConversionFee, fields__max_conversion_fee, rfl, rfl, fun _ => rfl⟩,
      ⟨.conversionFee, fields__conversion_fee, rfl, rfl, fun _ => rfl⟩,
      ⟨.conversionsEnabled, fields__conversions_enabled, rfl, rfl, fun _ => rfl⟩,
      ⟨.connectors, fields__connectors, rfl⟩, fun _ h => absurd h List.not_mem_nil⟩
  · refine ⟨_, slots_Network, by decide, ?_⟩
    simp only [List.forall_mem_cons]
    exact ⟨⟨.owner, fields__owner, rfl, rfl, fun _ => rfl⟩,
      ⟨.newOwner, fields__new_owner, rfl, rfl, fun _ => rfl⟩,
      ⟨.icxTokens, fields__icx_tokens, rfl, rfl, fun _ _ => rfl⟩, fun _ h => absurd h List.not_mem_nil⟩

theorem slots_Connector : initIn "Connector" ["Connector"] = some [("virtual_balance", ⟨"VarDB", "virtual_balance", "int"⟩), ("weight", ⟨"VarDB", "weight", "int"⟩),
    ("is_virtual_balance_enabled", ⟨"VarDB", "is_virtual_balance_enabled", "bool"⟩), ("is_purchase_enabled", ⟨"VarDB", "is_purchase_enabled", "bool"⟩),
    ("is_set", ⟨"VarDB", "is_set", "bool"⟩)] := by krefl

/-- The prefix in the text of `ConnectorDict.__getitem__`: the constant `p` in
`Connector(self._db.get_sub_db(b'|'.join([p, key.to_bytes()])))`, made on first use and kept. -/
def connectorDb : Stmt → Option String
  | .seq (.ite (.cmp .notIn (.name "key") (.attr (.name "self") "_items"))
      (.seq (.assign (.name "sub_db") (.meth (.attr (.name "self") "_db") "get_sub_db" (.cons (.meth (.bytes "|") "join"
          (.cons (.list (.cons (.name p) (.cons (.meth (.name "key") "to_bytes" .nil) .nil))) .nil)) .nil)))
        (.assign (.index (.attr (.name "self") "_items") (.name "key")) (.fn "Connector" (.cons (.name "sub_db") .nil)))) .pass)
      (.ret (.index (.attr (.name "self") "_items") (.name "key"))) => some p
  | _ => none

/-- C77, connectors: a connector's storage objects, of the right type, are kept in a database of their own, under the keys of the layout. -/
theorem C77_connectors : (∃ l, initIn "Connector" ["Connector"] = some l ∧ (l.map Prod.fst).Nodup ∧
      ∀ p ∈ l, ∃ f, cfields.lookup p.1 = some f ∧ p.2.container = "VarDB" ∧ p.2.type = connectorType f ∧
        ∀ pre a, Layout.fieldKey pre (.connector a (connectorField f)) = Layout.varKey (Layout.connectorPrefix pre a) p.2.key) ∧
    ∃ p s, connectorDb tConnectorDict___getitem__.body = some p ∧ ((globals.lookup "Converter").bind fun g => g.lookup p) = some (.bytes s) ∧
      ∀ pre a, Layout.connectorPrefix pre a = pre ++ Layout.bar ++ (Layout.ascii s ++ Layout.bar ++ Layout.addrBytes a) := by
  refine ⟨⟨_, slots_Connector, by decide, ?_⟩, "CONNECTOR_DB_PREFIX", "\x03", by krefl, by krefl, fun _ _ => rfl⟩
  simp only [List.forall_mem_cons]
  exact ⟨⟨.virtualBalance, cfields_virtual_balance, trivial, rfl, fun _ _ => rfl⟩, ⟨.weight, cfields_weight, trivial, rfl, fun _ _ => rfl⟩,
    ⟨.isVirtual, cfields_is_virtual_balance_enabled, trivial, rfl, fun _ _ => rfl⟩, ⟨.isPurchaseEnabled, cfields_is_purchase_enabled, trivial, rfl, fun _ _ => rfl⟩,
    ⟨.isSet, cfields_is_set, trivial, rfl, fun _ _ => rfl⟩, fun _ h => absurd h List.not_mem_nil⟩

set_option maxRecDepth 100000 in
/-- C77, names: whatever the text of a method of a deployed contract asks of `self`, of `super()` or of the functions around it is there: no call fails because an attribute,
a storage object, a method or a function does not exist, in any branch. (All methods in the text of the class and of its ancestors, overridden ones included.) -/
theorem C77_names (c : String) (hc : c ∈ deployed) (here : String) (hh : here ∈ mroOf c) (u : Use) (hu : u ∈ usesOf here) : provides c here u = true := by
  have key : ∀ c ∈ deployed, ∀ here ∈ mroOf c, ∀ u ∈ usesOf here, provides c here u = true := by decide +kernel
  exact key c hc here hh u hu

/-- C77, updates: updating the code of a contract, `on_update` of every class, always succeeds, calls no other contract and changes nothing in the ledger. -/
theorem C77_update (cx : Ctx) (c : String) (hc : c ∈ deployed) (depth loops : Nat) (hd : 4 ≤ depth) (w : World) :
    onUpdate (Cx.of cx c loops) depth w = some (.none, w) := by
  simp only [deployed, List.mem_cons, List.not_mem_nil, or_false] at hc
  unfold onUpdate
  simp only [of_cls]
  rcases hc with rfl | rfl | rfl | rfl | rfl | rfl
  · rw [find_IRCToken_on_update]; exact upd_IRCToken _ _ _ _ (by omega)
  · rw [find_FlexibleToken_on_update]; exact upd_FlexibleToken _ _ _ _ (by omega)
  · rw [find_IcxToken_on_update]; exact upd_IcxToken _ _ _ _ (by omega)
  · rw [find_ScoreRegistry_on_update]; exact upd_ScoreRegistry _ _ _ _ (by omega)
  · rw [find_Converter_on_update]; exact upd_Converter _ _ _ _ (by omega)
  · rw [find_Network_on_update]; exact upd_Network _ _ _ _ (by omega)

set_option maxRecDepth 100000 in
/-- The converter's text has 14 storage objects and uses its own and inherited ones; the manager of the network would not be there. -/
example : (slots "Converter").map List.length = some 14 ∧ Use.attr "_owner" ∈ usesOf "Owned" ∧ Use.attr "_connectors" ∈ usesOf "Converter" ∧
    Use.sup "withdrawTokens" ∈ usesOf "Converter" ∧ provides "Network" "Network" (.attr "_manager") = false := by decide +kernel

end Verif.Props
