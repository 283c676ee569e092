import Verif.Peg.Core

/-!
# Reserved words (`init_reserved_words.cxx`)

The word lists in the order in which the alternatives are tried.
-/

namespace Adql

/-- `ADQL_reserved_word` (init_reserved_words.cxx L26-L42). -/
def adqlWords : List Str := [
  cs!"TRUNCATE", cs!"TOP", cs!"TAP_UPLOAD", cs!"TAN", cs!"SQRT", cs!"SIN", cs!"ROUND",
  cs!"REGION", cs!"RAND", cs!"RADIANS", cs!"POWER", cs!"POLYGON", cs!"POINT", cs!"PI", cs!"MOD",
  cs!"LOG10", cs!"LOG", cs!"INTERSECTS", cs!"FLOOR", cs!"EXP", cs!"DISTANCE", cs!"DEGREES",
  cs!"COS", cs!"COORDSYS", cs!"COORD2", cs!"COORD1", cs!"CONTAINS", cs!"CIRCLE", cs!"CENTROID",
  cs!"CEILING", cs!"BOX", cs!"ATAN2", cs!"ATAN", cs!"ASIN", cs!"AREA", cs!"ACOS", cs!"ABS"]

/-- `SQL_reserved_word_00` (init_reserved_words.cxx L45-L52). -/
def sqlWords00 : List Str := [
  cs!"ZONE", cs!"YEAR", cs!"WRITE", cs!"WORK", cs!"WITH", cs!"WHERE", cs!"WHENEVER", cs!"WHEN",
  cs!"VIEW", cs!"VARYING", cs!"VARCHAR", cs!"VALUES", cs!"VALUE", cs!"USING", cs!"USER",
  cs!"USAGE"]

/-- `SQL_reserved_word_01` (init_reserved_words.cxx L54-L61). -/
def sqlWords01 : List Str := [
  cs!"UPPER", cs!"UPDATE", cs!"UNKNOWN", cs!"UNIQUE", cs!"UNION", cs!"TRUE", cs!"TRIM",
  cs!"TRANSLATION", cs!"TRANSLATE", cs!"TRANSACTION", cs!"TRAILING", cs!"TO",
  cs!"TIMEZONE_MINUTE", cs!"TIMEZONE_HOUR", cs!"TIMESTAMP"]

/-- `SQL_reserved_word_02` (init_reserved_words.cxx L63-L70). -/
def sqlWords02 : List Str := [
  cs!"TIME", cs!"THEN", cs!"TEMPORARY", cs!"TABLE", cs!"SYSTEM_USER", cs!"SUM", cs!"SUBSTRING",
  cs!"SQLSTATE", cs!"SQLERROR", cs!"SQLCODE", cs!"SQL", cs!"SPACE", cs!"SOME", cs!"SMALLINT",
  cs!"SIZE", cs!"SET"]

/-- `SQL_reserved_word_03` (init_reserved_words.cxx L72-L79). -/
def sqlWords03 : List Str := [
  cs!"SESSION_USER", cs!"SESSION", cs!"SELECT", cs!"SECTION", cs!"SECOND", cs!"SCROLL",
  cs!"SCHEMA", cs!"ROWS", cs!"ROLLBACK", cs!"RIGHT", cs!"REVOKE", cs!"RESTRICT", cs!"RELATIVE",
  cs!"REFERENCES", cs!"REAL", cs!"READ"]

/-- `SQL_reserved_word_10` (init_reserved_words.cxx L81-L88). -/
def sqlWords10 : List Str := [
  cs!"PUBLIC", cs!"PROCEDURE", cs!"PRIVILEGES", cs!"PRIOR", cs!"PRIMARY", cs!"PRESERVE",
  cs!"PREPARE", cs!"PRECISION", cs!"POSITION", cs!"PARTIAL", cs!"PAD", cs!"OVERLAPS",
  cs!"OUTPUT", cs!"OUTER", cs!"ORDER", cs!"OR"]

/-- `SQL_reserved_word_11` (init_reserved_words.cxx L90-L96). -/
def sqlWords11 : List Str := [
  cs!"OPTION", cs!"OPEN", cs!"ONLY", cs!"ON", cs!"OF", cs!"OCTET_LENGTH", cs!"NUMERIC",
  cs!"NULLIF", cs!"NULL", cs!"NOT", cs!"NO", cs!"NEXT", cs!"NCHAR", cs!"NATURAL", cs!"NATIONAL"]

/-- `SQL_reserved_word_12` (init_reserved_words.cxx L98-L105). -/
def sqlWords12 : List Str := [
  cs!"NAMES", cs!"MONTH", cs!"MODULE", cs!"MINUTE", cs!"MIN", cs!"MAX", cs!"MATCH", cs!"LOWER",
  cs!"LOCAL", cs!"LIKE", cs!"LEVEL", cs!"LEFT", cs!"LEADING", cs!"LAST", cs!"LANGUAGE", cs!"KEY"]

/-- `SQL_reserved_word_13` (init_reserved_words.cxx L107-L114). -/
def sqlWords13 : List Str := [
  cs!"JOIN", cs!"ISOLATION", cs!"IS", cs!"INTO", cs!"INTERVAL", cs!"INTERSECT", cs!"INTEGER",
  cs!"INT", cs!"INSERT", cs!"INSENSITIVE", cs!"INPUT", cs!"INNER", cs!"INITIALLY",
  cs!"INDICATOR", cs!"IN", cs!"IMMEDIATE"]

/-- `SQL_reserved_word_20` (init_reserved_words.cxx L116-L123). -/
def sqlWords20 : List Str := [
  cs!"IDENTITY", cs!"HOUR", cs!"HAVING", cs!"GROUP", cs!"GRANT", cs!"GOTO", cs!"GO", cs!"GLOBAL",
  cs!"GET", cs!"FULL", cs!"FROM", cs!"FOUND", cs!"FOREIGN", cs!"FOR", cs!"FLOAT", cs!"FIRST"]

/-- `SQL_reserved_word_21` (init_reserved_words.cxx L125-L132). -/
def sqlWords21 : List Str := [
  cs!"FETCH", cs!"FALSE", cs!"EXTRACT", cs!"EXTERNAL", cs!"EXISTS", cs!"EXECUTE", cs!"EXEC",
  cs!"EXCEPTION", cs!"EXCEPT", cs!"ESCAPE", cs!"END-EXEC", cs!"END", cs!"ELSE", cs!"DROP",
  cs!"DOUBLE", cs!"DOMAIN"]

/-- `SQL_reserved_word_22` (init_reserved_words.cxx L134-L142). -/
def sqlWords22 : List Str := [
  cs!"DISTINCT", cs!"DISCONNECT", cs!"DIAGNOSTICS", cs!"DESCRIPTOR", cs!"DESCRIBE", cs!"DESC",
  cs!"DELETE", cs!"DEFERRED", cs!"DEFERRABLE", cs!"DEFAULT", cs!"DECLARE", cs!"DECIMAL",
  cs!"DEALLOCATE", cs!"DAY", cs!"DATE", cs!"CURSOR"]

/-- `SQL_reserved_word_23` (init_reserved_words.cxx L144-L152). -/
def sqlWords23 : List Str := [
  cs!"CURRENT_USER", cs!"CURRENT_TIMESTAMP", cs!"CURRENT_TIME", cs!"CURRENT_DATE", cs!"CURRENT",
  cs!"CROSS", cs!"CREATE", cs!"COUNT", cs!"CORRESPONDING", cs!"CONVERT", cs!"CONTINUE",
  cs!"CONSTRAINTS", cs!"CONSTRAINT", cs!"CONNECTION", cs!"CONNECT", cs!"COMMIT"]

/-- `SQL_reserved_word_30` (init_reserved_words.cxx L154-L162). -/
def sqlWords30 : List Str := [
  cs!"COLUMN", cs!"COLLATION", cs!"COLLATE", cs!"COALESCE", cs!"CLOSE", cs!"CHECK",
  cs!"CHAR_LENGTH", cs!"CHARACTER_LENGTH", cs!"CHARACTER", cs!"CHAR", cs!"CATALOG", cs!"CAST",
  cs!"CASE", cs!"CASCADED", cs!"CASCADE", cs!"BY"]

/-- `SQL_reserved_word_31` (init_reserved_words.cxx L164-L171). -/
def sqlWords31 : List Str := [
  cs!"BOTH", cs!"BIT_LENGTH", cs!"BIT", cs!"BETWEEN", cs!"BEGIN", cs!"AVG", cs!"AUTHORIZATION",
  cs!"AT", cs!"ASSERTION", cs!"ASC", cs!"AS", cs!"ARE", cs!"ANY", cs!"AND", cs!"ALTER",
  cs!"ALLOCATE"]

/-- `SQL_reserved_word_32` (init_reserved_words.cxx L173-L174). -/
def sqlWords32 : List Str := [
  cs!"ALL", cs!"ADD", cs!"ACTION", cs!"ABSOLUTE"]

/-- `SQL_reserved_word` (init_reserved_words.cxx L175-L189): the alternatives of
`SQL_reserved_word_0` .. `_3`, flattened (ordered choice is associative). -/
def sqlWords : List Str :=
  sqlWords00 ++ sqlWords01 ++ sqlWords02 ++ sqlWords03 ++ sqlWords10 ++ sqlWords11 ++
  sqlWords12 ++ sqlWords13 ++ sqlWords20 ++ sqlWords21 ++ sqlWords22 ++ sqlWords23 ++
  sqlWords30 ++ sqlWords31 ++ sqlWords32

end Adql
