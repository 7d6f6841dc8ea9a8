import Verif.Lemmas.GoTemplate
import Verif.Model.TypesCode

/-! The lines of the templates of the types generator. -/

namespace Verif.TypesCode

open GoTemplate

/-- The lines of the template. -/
def metadataLines : List Line := [
  .line [.lit t!"// Metadata contains the version metadata."],
  .line [.lit t!"type Metadata struct {"],
  .line [.lit t!"bitmap_       uint32"],
  .line [.lit t!"serverVersion string"],
  .line [.lit t!"}"],
  .line [.lit t!"// ServerVersion returns the version of the server."],
  .line [.lit t!"func (m *Metadata) ServerVersion() string {"],
  .line [.lit t!"if m != nil && m.bitmap_&1 != 0 {"],
  .line [.lit t!"return m.serverVersion"],
  .line [.lit t!"}"],
  .line [.lit t!"return \"\""],
  .line [.lit t!"}"],
  .line [.lit t!"// GetServerVersion returns the value of the server version and a flag indicating if"],
  .line [.lit t!"// the attribute has a value."],
  .line [.lit t!"func (m *Metadata) GetServerVersion() (value string, ok bool) {"],
  .line [.lit t!"ok = m != nil && m.bitmap_&1 != 0"],
  .line [.lit t!"if ok {"],
  .line [.lit t!"value = m.serverVersion"],
  .line [.lit t!"}"],
  .line [.lit t!"return"],
  .line [.lit t!"}"]]

/-- The lines of the template. -/
def enumLines : List Line := [
  .set t!"$enumName" [t!"enumName", t!".Type"],
  .line [.lit t!"// ", .print [t!"$enumName"], .lit t!" represents the values of the '",
    .print [t!".Type.Name"], .lit t!"' enumerated type."],
  .line [.lit t!"type ", .print [t!"$enumName"], .lit t!" string"],
  .line [.lit t!"const ("],
  .range [t!".Type.Values"]
    [
      .line [.print [t!"lineComment", t!".Doc"]],
      .line [.print [t!"valueName", t!"."], .lit t!" ", .print [t!"$enumName"], .lit t!" = \"",
        .print [t!"valueTag", t!"."], .lit t!"\""]],
  .line [.lit t!")"]]

/-- The kinds of objects. -/
def kindsLines : List Line := [
  .branch [t!".Type.IsClass"]
    [
      .line [.lit t!"// ", .print [t!"$objectName"],
        .lit t!"Kind is the name of the type used to represent objects"],
      .line [.lit t!"// of type '", .print [t!".Type.Name"], .lit t!"'."],
      .line [.lit t!"const ", .print [t!"$objectName"], .lit t!"Kind = \"", .print [t!"$objectName"],
        .lit t!"\""],
      .line [.lit t!"// ", .print [t!"$objectName"],
        .lit t!"LinkKind is the name of the type used to represent links"],
      .line [.lit t!"// to objects of type '", .print [t!".Type.Name"], .lit t!"'."],
      .line [.lit t!"const ", .print [t!"$objectName"], .lit t!"LinkKind = \"",
        .print [t!"$objectName"], .lit t!"Link\""],
      .line [.lit t!"// ", .print [t!"$objectName"],
        .lit t!"NilKind is the name of the type used to nil references"],
      .line [.lit t!"// to objects of type '", .print [t!".Type.Name"], .lit t!"'."],
      .line [.lit t!"const ", .print [t!"$objectName"], .lit t!"NilKind = \"",
        .print [t!"$objectName"], .lit t!"Nil\""]]
    []]

/-- The structure. -/
def structureLines : List Line := [
  .line [.lit t!"// ", .print [t!"$objectName"], .lit t!" represents the values of the '",
    .print [t!".Type.Name"], .lit t!"' type."],
  .line [.lit t!"//"],
  .line [.print [t!"lineComment", t!".Type.Doc"]],
  .line [.lit t!"type  ", .print [t!"$objectName"], .lit t!" struct {"],
  .line [.lit t!"bitmap_ ", .print [t!"bitmapType", t!".Type"]],
  .branch [t!".Type.IsClass"]
    [
      .line [.lit t!"id   string"],
      .line [.lit t!"href string"]]
    [],
  .range [t!".Type.Attributes"]
    [
      .branch [t!"not", t!".Type.IsBoolean"]
        [
          .line [.print [t!"fieldName", t!"."], .lit t!" ", .print [t!"fieldType", t!"."]]]
        []],
  .range [t!".Type.Attributes"]
    [
      .branch [t!".Type.IsBoolean"]
        [
          .line [.print [t!"fieldName", t!"."], .lit t!" ", .print [t!"fieldType", t!"."]]]
        []],
  .line [.lit t!"}"]]

/-- The methods of all the objects of classes. -/
def identityLines : List Line := [
  .branch [t!".Type.IsClass"]
    [
      .line [.lit t!"// Kind returns the name of the type of the object."],
      .line [.lit t!"func (o *", .print [t!"$objectName"], .lit t!") Kind() string {"],
      .line [.lit t!"if o == nil {"],
      .line [.lit t!"return ", .print [t!"$objectName"], .lit t!"NilKind"],
      .line [.lit t!"}"],
      .line [.lit t!"if o.bitmap_&1 != 0 {"],
      .line [.lit t!"return ", .print [t!"$objectName"], .lit t!"LinkKind"],
      .line [.lit t!"}"],
      .line [.lit t!"return ", .print [t!"$objectName"], .lit t!"Kind"],
      .line [.lit t!"}"],
      .line [.lit t!"// Link returns true if this is a link."],
      .line [.lit t!"func (o *", .print [t!"$objectName"], .lit t!") Link() bool {"],
      .line [.lit t!"return o != nil && o.bitmap_&1 != 0"],
      .line [.lit t!"}"],
      .line [.lit t!"// ID returns the identifier of the object."],
      .line [.lit t!"func (o *", .print [t!"$objectName"], .lit t!") ID() string {"],
      .line [.lit t!"if o != nil && o.bitmap_&2 != 0 {"],
      .line [.lit t!"return o.id"],
      .line [.lit t!"}"],
      .line [.lit t!"return \"\""],
      .line [.lit t!"}"],
      .line [.lit t!"// GetID returns the identifier of the object and a flag indicating if the"],
      .line [.lit t!"// identifier has a value."],
      .line [.lit t!"func (o *", .print [t!"$objectName"], .lit t!") GetID() (value string, ok bool) {"],
      .line [.lit t!"ok = o != nil && o.bitmap_&2 != 0"],
      .line [.lit t!"if ok {"],
      .line [.lit t!"value = o.id"],
      .line [.lit t!"}"],
      .line [.lit t!"return"],
      .line [.lit t!"}"],
      .line [.lit t!"// HREF returns the link to the object."],
      .line [.lit t!"func (o *", .print [t!"$objectName"], .lit t!") HREF() string {"],
      .line [.lit t!"if o != nil && o.bitmap_&4 != 0 {"],
      .line [.lit t!"return o.href"],
      .line [.lit t!"}"],
      .line [.lit t!"return \"\""],
      .line [.lit t!"}"],
      .line [.lit t!"// GetHREF returns the link of the object and a flag indicating if the"],
      .line [.lit t!"// link has a value."],
      .line [.lit t!"func (o *", .print [t!"$objectName"],
        .lit t!") GetHREF() (value string, ok bool) {"],
      .line [.lit t!"ok = o != nil && o.bitmap_&4 != 0"],
      .line [.lit t!"if ok {"],
      .line [.lit t!"value = o.href"],
      .line [.lit t!"}"],
      .line [.lit t!"return"],
      .line [.lit t!"}"]]
    []]

/-- The method that tells if an object is empty. -/
def emptyLines : List Line := [
  .line [.lit t!"// Empty returns true if the object is empty, i.e. no attribute has a value."],
  .line [.lit t!"func (o *", .print [t!"$objectName"], .lit t!") Empty() bool {"],
  .branch [t!".Type.IsClass"]
    [
      .line [.lit t!"return o == nil || o.bitmap_&^1 == 0"]]
    [
      .line [.lit t!"return o == nil || o.bitmap_ == 0"]],
  .line [.lit t!"}"]]

/-- The getters. -/
def getterLines : List Line := [
  .range [t!".Type.Attributes"]
    [
      .set t!"$attributeType" [t!".Type.Name.String"],
      .set t!"$fieldName" [t!"fieldName", t!"."],
      .set t!"$fieldMask" [t!"bitMask", t!"."],
      .set t!"$getterName" [t!"getterName", t!"."],
      .set t!"$getterType" [t!"getterType", t!"."],
      .line [.lit t!"// ", .print [t!"$getterName"], .lit t!" returns the value of the '",
        .print [t!".Name"], .lit t!"' attribute, or"],
      .line [.lit t!"// the zero value of the type if the attribute doesn't have a value."],
      .line [.lit t!"//"],
      .line [.print [t!"lineComment", t!".Doc"]],
      .line [.lit t!"func (o *", .print [t!"$objectName"], .lit t!") ", .print [t!"$getterName"],
        .lit t!"() ", .print [t!"$getterType"], .lit t!" {"],
      .line [.lit t!"if o != nil && o.bitmap_&", .print [t!"$fieldMask"], .lit t!" != 0 {"],
      .line [.lit t!"return o.", .print [t!"$fieldName"]],
      .line [.lit t!"}"],
      .line [.lit t!"return ", .print [t!"zeroValue", t!".Type"]],
      .line [.lit t!"}"],
      .line [.lit t!"// Get", .print [t!"$getterName"], .lit t!" returns the value of the '",
        .print [t!".Name"], .lit t!"' attribute and"],
      .line [.lit t!"// a flag indicating if the attribute has a value."],
      .line [.lit t!"//"],
      .line [.print [t!"lineComment", t!".Doc"]],
      .line [.lit t!"func (o *", .print [t!"$objectName"], .lit t!") Get", .print [t!"$getterName"],
        .lit t!"() (value ", .print [t!"$getterType"], .lit t!", ok bool) {"],
      .line [.lit t!"ok = o != nil && o.bitmap_&", .print [t!"$fieldMask"], .lit t!" != 0"],
      .line [.lit t!"if ok {"],
      .line [.lit t!"value = o.", .print [t!"$fieldName"]],
      .line [.lit t!"}"],
      .line [.lit t!"return"],
      .line [.lit t!"}"]]]

/-- The kinds of lists and the structure. -/
def listKindsLines : List Line := [
  .line [.lit t!"// ", .print [t!"$listName"],
    .lit t!"Kind is the name of the type used to represent list of objects of"],
  .line [.lit t!"// type '", .print [t!".Type.Name"], .lit t!"'."],
  .line [.lit t!"const ", .print [t!"$listName"], .lit t!"Kind = \"", .print [t!"$listName"],
    .lit t!"\""],
  .line [.lit t!"// ", .print [t!"$listName"],
    .lit t!"LinkKind is the name of the type used to represent links to list"],
  .line [.lit t!"// of objects of type '", .print [t!".Type.Name"], .lit t!"'."],
  .line [.lit t!"const ", .print [t!"$listName"], .lit t!"LinkKind = \"", .print [t!"$listName"],
    .lit t!"Link\""],
  .line [.lit t!"// ", .print [t!"$objectName"],
    .lit t!"NilKind is the name of the type used to nil lists of objects of"],
  .line [.lit t!"// type '", .print [t!".Type.Name"], .lit t!"'."],
  .line [.lit t!"const ", .print [t!"$listName"], .lit t!"NilKind = \"", .print [t!"$listName"],
    .lit t!"Nil\""],
  .line [.lit t!"// ", .print [t!"$listName"], .lit t!" is a list of values of the '",
    .print [t!".Type.Name"], .lit t!"' type."],
  .line [.lit t!"type ", .print [t!"$listName"], .lit t!" struct {"],
  .line [.lit t!"href  string"],
  .line [.lit t!"link  bool"],
  .line [.lit t!"items []*", .print [t!"$objectName"]],
  .line [.lit t!"}"]]

/-- The methods of lists of objects of classes. -/
def listIdentityLines : List Line := [
  .branch [t!".Type.IsClass"]
    [
      .line [.lit t!"// Kind returns the name of the type of the object."],
      .line [.lit t!"func (l *", .print [t!"$listName"], .lit t!") Kind() string {"],
      .line [.lit t!"if l == nil {"],
      .line [.lit t!"return ", .print [t!"$listName"], .lit t!"NilKind"],
      .line [.lit t!"}"],
      .line [.lit t!"if l.link {"],
      .line [.lit t!"return ", .print [t!"$listName"], .lit t!"LinkKind"],
      .line [.lit t!"}"],
      .line [.lit t!"return ", .print [t!"$listName"], .lit t!"Kind"],
      .line [.lit t!"}"],
      .line [.lit t!"// Link returns true iif this is a link."],
      .line [.lit t!"func (l *", .print [t!"$listName"], .lit t!") Link() bool {"],
      .line [.lit t!"return l != nil && l.link"],
      .line [.lit t!"}"],
      .line [.lit t!"// HREF returns the link to the list."],
      .line [.lit t!"func (l *", .print [t!"$listName"], .lit t!") HREF() string {"],
      .line [.lit t!"if l != nil {"],
      .line [.lit t!"return l.href"],
      .line [.lit t!"}"],
      .line [.lit t!"return \"\""],
      .line [.lit t!"}"],
      .line [.lit t!"// GetHREF returns the link of the list and a flag indicating if the"],
      .line [.lit t!"// link has a value."],
      .line [.lit t!"func (l *", .print [t!"$listName"], .lit t!") GetHREF() (value string, ok bool) {"],
      .line [.lit t!"ok = l != nil && l.href != \"\""],
      .line [.lit t!"if ok {"],
      .line [.lit t!"value = l.href"],
      .line [.lit t!"}"],
      .line [.lit t!"return"],
      .line [.lit t!"}"]]
    []]

/-- The methods of lists. -/
def listMethodsLines : List Line := [
  .line [.lit t!"// Len returns the length of the list."],
  .line [.lit t!"func (l *", .print [t!"$listName"], .lit t!") Len() int {"],
  .line [.lit t!"if l == nil {"],
  .line [.lit t!"return 0"],
  .line [.lit t!"}"],
  .line [.lit t!"return len(l.items)"],
  .line [.lit t!"}"],
  .line [.lit t!"// Items sets the items of the list."],
  .line [.lit t!"func (l *", .print [t!"$listName"], .lit t!") SetLink(link bool) {"],
  .line [.lit t!"l.link = link"],
  .line [.lit t!"}"],
  .line [.lit t!"// Items sets the items of the list."],
  .line [.lit t!"func (l *", .print [t!"$listName"], .lit t!") SetHREF(href string) {"],
  .line [.lit t!"l.href = href"],
  .line [.lit t!"}"],
  .line [.lit t!"// Items sets the items of the list."],
  .line [.lit t!"func (l *", .print [t!"$listName"], .lit t!") SetItems(items []*",
    .print [t!"$objectName"], .lit t!") {"],
  .line [.lit t!"l.items = items"],
  .line [.lit t!"}"],
  .line [.lit t!"// Items returns the items of the list."],
  .line [.lit t!"func (l *", .print [t!"$listName"], .lit t!") Items() []*", .print [t!"$objectName"],
    .lit t!" {"],
  .line [.lit t!"if l == nil {"],
  .line [.lit t!"return nil"],
  .line [.lit t!"}"],
  .line [.lit t!"return l.items"],
  .line [.lit t!"}"],
  .line [.lit t!"// Empty returns true if the list is empty."],
  .line [.lit t!"func (l *", .print [t!"$listName"], .lit t!") Empty() bool {"],
  .line [.lit t!"return l == nil || len(l.items) == 0"],
  .line [.lit t!"}"],
  .line [.lit t!"// Get returns the item of the list with the given index. If there is no item with"],
  .line [.lit t!"// that index it returns nil."],
  .line [.lit t!"func (l *", .print [t!"$listName"], .lit t!") Get(i int) *", .print [t!"$objectName"],
    .lit t!" {"],
  .line [.lit t!"if l == nil || i < 0 || i >= len(l.items) {"],
  .line [.lit t!"return nil"],
  .line [.lit t!"}"],
  .line [.lit t!"return l.items[i]"],
  .line [.lit t!"}"],
  .line [.lit t!"// Slice returns an slice containing the items of the list. The returned slice is a"],
  .line [.lit t!"// copy of the one used internally, so it can be modified without affecting the"],
  .line [.lit t!"// internal representation."],
  .line [.lit t!"//"],
  .line [.lit t!"// If you don't need to modify the returned slice consider using the Each or Range"],
  .line [.lit t!"// functions, as they don't need to allocate a new slice."],
  .line [.lit t!"func (l *", .print [t!"$listName"], .lit t!") Slice() []*", .print [t!"$objectName"],
    .lit t!" {"],
  .line [.lit t!"var slice []*", .print [t!"$objectName"]],
  .line [.lit t!"if l == nil {"],
  .line [.lit t!"slice = make([]*", .print [t!"$objectName"], .lit t!", 0)"],
  .line [.lit t!"} else {"],
  .line [.lit t!"slice = make([]*", .print [t!"$objectName"], .lit t!", len(l.items))"],
  .line [.lit t!"copy(slice, l.items)"],
  .line [.lit t!"}"],
  .line [.lit t!"return slice"],
  .line [.lit t!"}"],
  .line [.lit t!"// Each runs the given function for each item of the list, in order. If the function"],
  .line [.lit t!"// returns false the iteration stops, otherwise it continues till all the elements"],
  .line [.lit t!"// of the list have been processed."],
  .line [.lit t!"func (l *", .print [t!"$listName"], .lit t!") Each(f func(item *",
    .print [t!"$objectName"], .lit t!") bool) {"],
  .line [.lit t!"if l == nil {"],
  .line [.lit t!"return"],
  .line [.lit t!"}"],
  .line [.lit t!"for _, item := range l.items {"],
  .line [.lit t!"if !f(item) {"],
  .line [.lit t!"break"],
  .line [.lit t!"}"],
  .line [.lit t!"}"],
  .line [.lit t!"}"],
  .line [.lit t!"// Range runs the given function for each index and item of the list, in order. If"],
  .line [.lit t!"// the function returns false the iteration stops, otherwise it continues till all"],
  .line [.lit t!"// the elements of the list have been processed."],
  .line [.lit t!"func (l *", .print [t!"$listName"], .lit t!") Range(f func(index int, item *",
    .print [t!"$objectName"], .lit t!") bool) {"],
  .line [.lit t!"if l == nil {"],
  .line [.lit t!"return"],
  .line [.lit t!"}"],
  .line [.lit t!"for index, item := range l.items {"],
  .line [.lit t!"if !f(index, item) {"],
  .line [.lit t!"break"],
  .line [.lit t!"}"],
  .line [.lit t!"}"],
  .line [.lit t!"}"]]

/-- The lines of the template. -/
def structLines : List Line :=
  .set t!"$objectName" [t!"objectName", t!".Type"] ::
  .set t!"$listName" [t!"listName", t!".Type"] ::
  (kindsLines ++ (structureLines ++ (identityLines ++ (emptyLines ++ (getterLines ++ (listKindsLines ++
    (listIdentityLines ++ listMethodsLines)))))))

set_option maxRecDepth 100000 in
theorem metadata_lines : hasLines metadataTemplate metadataLines = true := by decide +kernel

set_option maxRecDepth 100000 in
theorem enum_lines : hasLines enumTemplate enumLines = true := by decide +kernel

set_option maxRecDepth 100000 in
theorem struct_lines : hasLines structTemplate structLines = true := by decide +kernel

end Verif.TypesCode
