import Verif.Model.SqlNames
/-!
# SQL types and the schema catalogue (`src/sql/types.rs`, `src/sql/schema.rs`)
-/

namespace Verif.Sql

/-- `DataType` (`src/sql/types.rs` L26-51). -/
inductive DataType where
  | generic | varchar | numeric | logical | date | time | timestamp | geometry
  deriving DecidableEq, Repr

/-- `DataType::is_ordered` (`src/sql/types.rs` L68-80). -/
def DataType.isOrdered : DataType → Bool
  | .varchar | .numeric | .date | .time | .timestamp => true
  | _ => false

/-- `impl Display for DataType` (`src/sql/types.rs` L53-66). -/
def DataType.display : DataType → String
  | .generic => "GENERIC"
  | .logical => "LOGICAL"
  | .varchar => "VARCHAR"
  | .numeric => "NUMERIC"
  | .date => "DATE"
  | .time => "TIME"
  | .timestamp => "TIMESTAMP"
  | .geometry => "GEOMETRY"

/-- `Column` (`src/sql/schema.rs` L205-218). -/
structure Column (N : Type) where
  name : N
  notNull : Bool
  primaryKey : Bool
  dataType : DataType
  deriving DecidableEq

/-- `RowSet` (`src/sql/schema.rs` L161-165). -/
structure RowSet (N : Type) where
  columns : List (Column N)
  deriving DecidableEq

/-- `RowSet::empty` (`src/sql/schema.rs` L168-170). -/
def RowSet.empty {N : Type} : RowSet N := ⟨[]⟩

/-- `RowSet::meta_data` (`src/sql/schema.rs` L172-201): the columns of the answer to `DESCRIBE`. -/
def RowSet.metaData {N : Type} (ops : NameOps N) : RowSet N :=
  ⟨[⟨ops.lit "name", true, true, .varchar⟩, ⟨ops.lit "not_null", true, false, .numeric⟩,
    ⟨ops.lit "primary_key", true, false, .numeric⟩, ⟨ops.lit "datatype", true, false, .varchar⟩]⟩

/-- `SchemaObject`, `Table`, `View` (`src/sql/schema.rs` L116-158).  The query of a view is text that
nothing reads. -/
inductive SchemaObject (N : Type) where
  | table (name : N) (rows : RowSet N) (primaryKey : List N)
  | view (name : N) (rows : RowSet N) (query : List Char)

/-- `SchemaObject::row_set` (`src/sql/schema.rs` L126-131). -/
def SchemaObject.rowSet {N : Type} : SchemaObject N → RowSet N
  | .table _ rows _ => rows
  | .view _ rows _ => rows

/-- `Schema` (`src/sql/schema.rs` L97-104). -/
structure Schema (N : Type) where
  name : N
  objects : TMap N (SchemaObject N)

/-- `Schema::new` (`src/sql/schema.rs` L107-112). -/
def Schema.new {N : Type} (name : N) : Schema N := ⟨name, []⟩

/-- `Database` (`src/sql/schema.rs` L30-33). -/
structure Database (N : Type) where
  schemata : TMap N (Schema N)

/-- `Database::new` (`src/sql/schema.rs` L36-40). -/
def Database.new {N : Type} : Database N := ⟨[]⟩

/-- The errors of `src/sql/schema.rs`; the message texts, which repeat the names, are left out. -/
inductive SchemaError where
  | alreadyDefined | schemaNotFound | objectNotFound
  deriving DecidableEq, Repr

variable {N : Type} (ops : NameOps N)

/-- `Database::create_schema` (`src/sql/schema.rs` L42-54).  Takes `&mut self`: returns the database
after the call and the result. -/
def Database.createSchema (db : Database N) (name : N) : Res (Database N × Except SchemaError Unit) := do
  if db.schemata.containsKey ops name then
    return (db, .error .alreadyDefined)
  let old := db.schemata.get ops name
  let db' : Database N := ⟨db.schemata.insert ops name (Schema.new name)⟩
  assert old.isNone
  return (db', .ok ())

/-- `Database::create_table` (`src/sql/schema.rs` L56-63) is `unimplemented!()`. -/
def Database.createTable (_db : Database N) (_schema _table : N) (_columns : List (Column N)) :
    Res (Database N × Except SchemaError Unit) := .error .panic

/-- `Database::create_view` (`src/sql/schema.rs` L65-72) is `unimplemented!()`. -/
def Database.createView (_db : Database N) (_schema _table : N) (_query : List Char) :
    Res (Database N × Except SchemaError Unit) := .error .panic

/-- `Database::describe` (`src/sql/schema.rs` L74-93). -/
def Database.describe (db : Database N) (schema object : N) : Except SchemaError (RowSet N) :=
  match db.schemata.get ops schema with
  | none => .error .schemaNotFound
  | some s =>
    match s.objects.get ops object with
    | none => .error .objectNotFound
    | some (.table _ rows _) => .ok rows
    | some (.view _ rows _) => .ok rows

end Verif.Sql
