import Verif.Lemmas.GoTemplate
import Verif.Model.BuildersCode

/-! The lines of the templates of the builders generator. -/

namespace Verif.BuildersCode

open GoTemplate

/-- The structure. -/
def structureLines : List Line := [
  .line [.lit t!"// ", .print [t!"$builderName"],
    .lit t!" contains the data and logic needed to build '", .print [t!".Type.Name"],
    .lit t!"' objects."],
  .line [.lit t!"//"],
  .line [.print [t!"lineComment", t!".Type.Doc"]],
  .line [.lit t!"type  ", .print [t!"$builderName"], .lit t!" struct {"],
  .line [.lit t!"bitmap_ ", .print [t!"bitmapType", t!".Type"]],
  .branch [t!".Type.IsClass"]
    [
      .line [.lit t!"id   string"],
      .line [.lit t!"href string"]]
    [],
  .range [t!".Type.Attributes"]
    [
      .branch [t!"not", t!".Type.IsBoolean"]
        [
          .line [.print [t!"fieldName", t!"."], .lit t!" ", .print [t!"fieldType", t!"."]]]
        []],
  .range [t!".Type.Attributes"]
    [
      .branch [t!".Type.IsBoolean"]
        [
          .line [.print [t!"fieldName", t!"."], .lit t!" ", .print [t!"fieldType", t!"."]]]
        []],
  .line [.lit t!"}"]]

/-- The constructor. -/
def ctorLines : List Line := [
  .line [.lit t!"// ", .print [t!"$builderCtor"], .lit t!" creates a new builder of '",
    .print [t!".Type.Name"], .lit t!"' objects."],
  .line [.lit t!"func ", .print [t!"$builderCtor"], .lit t!"() *", .print [t!"$builderName"],
    .lit t!" {"],
  .line [.lit t!"return &", .print [t!"$builderName"], .lit t!"{}"],
  .line [.lit t!"}"]]

/-- The setters of all the builders of objects of classes. -/
def identityLines : List Line := [
  .branch [t!".Type.IsClass"]
    [
      .line [.lit t!"// Link sets the flag that indicates if this is a link."],
      .line [.lit t!"func (b *", .print [t!"$builderName"], .lit t!") Link(value bool) *",
        .print [t!"$builderName"], .lit t!" {"],
      .line [.lit t!"b.bitmap_ |= 1"],
      .line [.lit t!"return b"],
      .line [.lit t!"}"],
      .line [.lit t!"// ID sets the identifier of the object."],
      .line [.lit t!"func (b *", .print [t!"$builderName"], .lit t!") ID(value string) *",
        .print [t!"$builderName"], .lit t!" {"],
      .line [.lit t!"b.id = value"],
      .line [.lit t!"b.bitmap_ |= 2"],
      .line [.lit t!"return b"],
      .line [.lit t!"}"],
      .line [.lit t!"// HREF sets the link to the object."],
      .line [.lit t!"func (b *", .print [t!"$builderName"], .lit t!") HREF(value string) *",
        .print [t!"$builderName"], .lit t!" {"],
      .line [.lit t!"b.href = value"],
      .line [.lit t!"b.bitmap_ |= 4"],
      .line [.lit t!"return b"],
      .line [.lit t!"}"]]
    []]

/-- The method that tells if a builder is empty. -/
def emptyLines : List Line := [
  .line [.lit t!"// Empty returns true if the builder is empty, i.e. no attribute has a value."],
  .line [.lit t!"func (b *", .print [t!"$builderName"], .lit t!") Empty() bool {"],
  .branch [t!".Type.IsClass"]
    [
      .line [.lit t!"return b == nil || b.bitmap_&^1 == 0"]]
    [
      .line [.lit t!"return b == nil || b.bitmap_ == 0"]],
  .line [.lit t!"}"]]

/-- The setter of an attribute. -/
def setterBody : List Line := [
  .set t!"$fieldName" [t!"fieldName", t!"."],
  .set t!"$setterName" [t!"setterName", t!"."],
  .set t!"$setterType" [t!"setterType", t!"."],
  .set t!"$fieldMask" [t!"bitMask", t!"."],
  .set t!"$selectorType" [t!"selectorType", t!"."],
  .branch [t!".Type.IsList"]
    [
      .line [.lit t!"// ", .print [t!"$setterName"], .lit t!" sets the value of the '",
        .print [t!".Name"], .lit t!"' attribute to the given values."],
      .line [.lit t!"//"],
      .line [.print [t!"lineComment", t!".Type.Doc"]],
      .branch [t!".Link"]
        [
          .line [.lit t!"func (b *", .print [t!"$builderName"], .lit t!") ", .print [t!"$setterName"],
            .lit t!"(value ", .print [t!"$setterType"], .lit t!") *", .print [t!"$builderName"],
            .lit t!" {"],
          .line [.lit t!"b.", .print [t!"$fieldName"], .lit t!" = value"],
          .line [.lit t!"b.bitmap_ |= ", .print [t!"$fieldMask"]],
          .line [.lit t!"return b"],
          .line [.lit t!"}"]]
        [
          .set t!"$elementType" [t!"valueType", t!".Type.Element"],
          .branch [t!".Type.Element.IsScalar"]
            [
              .line [.lit t!"func (b *", .print [t!"$builderName"], .lit t!") ",
                .print [t!"$setterName"], .lit t!"(values ...", .print [t!"$elementType"],
                .lit t!") *", .print [t!"$builderName"], .lit t!" {"],
              .line [.lit t!"b.", .print [t!"$fieldName"], .lit t!" = make([]",
                .print [t!"$elementType"], .lit t!", len(values))"],
              .line [.lit t!"copy(b.", .print [t!"$fieldName"], .lit t!", values)"],
              .line [.lit t!"b.bitmap_ |= ", .print [t!"$fieldMask"]],
              .line [.lit t!"return b"],
              .line [.lit t!"}"]]
            [
              .set t!"$elementBuilderName" [t!"builderName", t!".Type.Element"],
              .line [.lit t!"func (b *", .print [t!"$builderName"], .lit t!") ",
                .print [t!"$setterName"], .lit t!"(values ...*", .print [t!"selectorType", t!"."],
                .print [t!"$elementBuilderName"], .lit t!") *", .print [t!"$builderName"], .lit t!" {"],
              .line [.lit t!"b.", .print [t!"$fieldName"], .lit t!" = make([]*",
                .print [t!"selectorType", t!"."], .print [t!"$elementBuilderName"],
                .lit t!", len(values))"],
              .line [.lit t!"copy(b.", .print [t!"$fieldName"], .lit t!", values)"],
              .line [.lit t!"b.bitmap_ |= ", .print [t!"$fieldMask"]],
              .line [.lit t!"return b"],
              .line [.lit t!"}"]]]]
    [
      .line [.lit t!"// ", .print [t!"$setterName"], .lit t!" sets the value of the '",
        .print [t!".Name"], .lit t!"' attribute to the given value."],
      .line [.lit t!"//"],
      .line [.print [t!"lineComment", t!".Type.Doc"]],
      .line [.lit t!"func (b *", .print [t!"$builderName"], .lit t!") ", .print [t!"$setterName"],
        .lit t!"(value ", .print [t!"$setterType"], .lit t!") *", .print [t!"$builderName"],
        .lit t!" {"],
      .line [.lit t!"b.", .print [t!"$fieldName"], .lit t!" = value"],
      .branch [t!".Type.IsScalar"]
        [
          .line [.lit t!"b.bitmap_ |= ", .print [t!"$fieldMask"]]]
        [
          .line [.lit t!"if value != nil {"],
          .line [.lit t!"b.bitmap_ |= ", .print [t!"$fieldMask"]],
          .line [.lit t!"} else {"],
          .line [.lit t!"b.bitmap_ &^= ", .print [t!"$fieldMask"]],
          .line [.lit t!"}"]],
      .line [.lit t!"return b"],
      .line [.lit t!"}"]]]

/-- The start of the method that copies an object. -/
def copyHead : List Line := [
  .line [.lit t!"// Copy copies the attributes of the given object into this builder, discarding any previous values."],
  .line [.lit t!"func (b *", .print [t!"$builderName"], .lit t!") Copy(object *",
    .print [t!"$objectName"], .lit t!") *", .print [t!"$builderName"], .lit t!" {"],
  .line [.lit t!"if object == nil {"],
  .line [.lit t!"return b"],
  .line [.lit t!"}"],
  .line [.lit t!"b.bitmap_ = object.bitmap_"],
  .branch [t!".Type.IsClass"]
    [
      .line [.lit t!"b.id = object.id"],
      .line [.lit t!"b.href = object.href"]]
    []]

/-- How an attribute is copied. -/
def copyBody : List Line := [
  .set t!"$fieldName" [t!"fieldName", t!"."],
  .set t!"$fieldType" [t!"fieldType", t!"."],
  .set t!"$selectorType" [t!"selectorType", t!"."],
  .branch [t!".Type.IsScalar"]
    [
      .line [.lit t!"b.", .print [t!"$fieldName"], .lit t!" = object.", .print [t!"$fieldName"]]]
    [
      .branch [t!".Type.IsStruct"]
        [
          .line [.lit t!"if object.", .print [t!"$fieldName"], .lit t!" != nil {"],
          .line [.lit t!"b.", .print [t!"$fieldName"], .lit t!" = ", .print [t!"selectorType", t!"."],
            .print [t!"builderCtor", t!".Type"], .lit t!"().Copy(object.", .print [t!"$fieldName"],
            .lit t!")"],
          .line [.lit t!"} else {"],
          .line [.lit t!"b.", .print [t!"$fieldName"], .lit t!" = nil"],
          .line [.lit t!"}"]]
        [
          .branch [t!".Type.IsList"]
            [
              .line [.lit t!"if object.", .print [t!"$fieldName"], .lit t!" != nil {"],
              .branch [t!".Link"]
                [
                  .line [.lit t!"b.", .print [t!"$fieldName"], .lit t!" = ",
                    .print [t!"selectorType", t!"."], .print [t!"builderCtor", t!".Type"],
                    .lit t!"().Copy(object.", .print [t!"$fieldName"], .lit t!")"]]
                [
                  .branch [t!".Type.Element.IsScalar"]
                    [
                      .line [.lit t!"b.", .print [t!"$fieldName"], .lit t!" = make(",
                        .print [t!"$fieldType"], .lit t!", len(object.", .print [t!"$fieldName"],
                        .lit t!"))"],
                      .line [.lit t!"copy(b.", .print [t!"$fieldName"], .lit t!", object.",
                        .print [t!"$fieldName"], .lit t!")"]]
                    [
                      .branch [t!".Type.Element.IsStruct"]
                        [
                          .line [.lit t!"b.", .print [t!"$fieldName"], .lit t!" = make([]*",
                            .print [t!"selectorType", t!"."],
                            .print [t!"builderName", t!".Type.Element"], .lit t!", len(object.",
                            .print [t!"$fieldName"], .lit t!"))"],
                          .line [.lit t!"for i, v := range object.", .print [t!"$fieldName"],
                            .lit t!" {"],
                          .line [.lit t!"b.", .print [t!"$fieldName"], .lit t!"[i] = ",
                            .print [t!"selectorType", t!"."],
                            .print [t!"builderCtor", t!".Type.Element"], .lit t!"().Copy(v)"],
                          .line [.lit t!"}"]]
                        []]],
              .line [.lit t!"} else {"],
              .line [.lit t!"b.", .print [t!"$fieldName"], .lit t!" = nil"],
              .line [.lit t!"}"]]
            [
              .branch [t!".Type.IsMap"]
                [
                  .line [.lit t!"if len(object.", .print [t!"$fieldName"], .lit t!") > 0 {"],
                  .branch [t!".Type.Element.IsScalar"]
                    [
                      .line [.lit t!"b.", .print [t!"$fieldName"], .lit t!" = ",
                        .print [t!"$fieldType"], .lit t!"{}"],
                      .line [.lit t!"for k, v := range object.", .print [t!"$fieldName"], .lit t!" {"],
                      .line [.lit t!"b.", .print [t!"$fieldName"], .lit t!"[k] = v"],
                      .line [.lit t!"}"]]
                    [
                      .branch [t!".Type.Element.IsStruct"]
                        [
                          .line [.lit t!"b.", .print [t!"$fieldName"], .lit t!" = map[string]*",
                            .print [t!"selectorType", t!"."],
                            .print [t!"builderName", t!".Type.Element"], .lit t!"{}"],
                          .line [.lit t!"for k, v := range object.", .print [t!"$fieldName"],
                            .lit t!" {"],
                          .line [.lit t!"b.", .print [t!"$fieldName"], .lit t!"[k] = ",
                            .print [t!"selectorType", t!"."],
                            .print [t!"builderCtor", t!".Type.Element"], .lit t!"().Copy(v)"],
                          .line [.lit t!"}"]]
                        []],
                  .line [.lit t!"} else {"],
                  .line [.lit t!"b.", .print [t!"$fieldName"], .lit t!" = nil"],
                  .line [.lit t!"}"]]
                []]]]]

/-- The end of the method that copies an object. -/
def copyTail : List Line := [
  .line [.lit t!"return b"],
  .line [.lit t!"}"]]

/-- The start of the method that builds an object. -/
def buildHead : List Line := [
  .line [.lit t!"// Build creates a '", .print [t!".Type.Name"],
    .lit t!"' object using the configuration stored in the builder."],
  .line [.lit t!"func (b *", .print [t!"$builderName"], .lit t!") Build() (object *",
    .print [t!"$objectName"], .lit t!", err error) {"],
  .line [.lit t!"object = new(", .print [t!"$objectName"], .lit t!")"],
  .branch [t!".Type.IsClass"]
    [
      .line [.lit t!"object.id = b.id"],
      .line [.lit t!"object.href = b.href"]]
    [],
  .line [.lit t!"object.bitmap_ = b.bitmap_"]]

/-- How an attribute is built. -/
def buildBody : List Line := [
  .set t!"$fieldName" [t!"fieldName", t!"."],
  .set t!"$fieldType" [t!"fieldType", t!"."],
  .branch [t!".Type.IsScalar"]
    [
      .line [.lit t!"object.", .print [t!"$fieldName"], .lit t!" = b.", .print [t!"$fieldName"]]]
    [
      .branch [t!".Type.IsStruct"]
        [
          .line [.lit t!"if b.", .print [t!"$fieldName"], .lit t!" != nil {"],
          .line [.lit t!"object.", .print [t!"$fieldName"], .lit t!", err = b.",
            .print [t!"$fieldName"], .lit t!".Build()"],
          .line [.lit t!"if err != nil {"],
          .line [.lit t!"return"],
          .line [.lit t!"}"],
          .line [.lit t!"}"]]
        [
          .branch [t!".Type.IsList"]
            [
              .line [.lit t!"if b.", .print [t!"$fieldName"], .lit t!" != nil {"],
              .branch [t!".Link"]
                [
                  .line [.lit t!"object.", .print [t!"$fieldName"], .lit t!", err = b.",
                    .print [t!"$fieldName"], .lit t!".Build()"],
                  .line [.lit t!"if err != nil {"],
                  .line [.lit t!"return"],
                  .line [.lit t!"}"]]
                [
                  .branch [t!".Type.Element.IsScalar"]
                    [
                      .line [.lit t!"object.", .print [t!"$fieldName"], .lit t!" = make(",
                        .print [t!"$fieldType"], .lit t!", len(b.", .print [t!"$fieldName"],
                        .lit t!"))"],
                      .line [.lit t!"copy(object.", .print [t!"$fieldName"], .lit t!", b.",
                        .print [t!"$fieldName"], .lit t!")"]]
                    [
                      .branch [t!".Type.Element.IsStruct"]
                        [
                          .line [.lit t!"object.", .print [t!"$fieldName"], .lit t!" = make([]*",
                            .print [t!"selectorType", t!"."],
                            .print [t!"objectName", t!".Type.Element"], .lit t!", len(b.",
                            .print [t!"$fieldName"], .lit t!"))"],
                          .line [.lit t!"for i, v := range b.", .print [t!"$fieldName"], .lit t!" {"],
                          .line [.lit t!"object.", .print [t!"$fieldName"],
                            .lit t!"[i], err = v.Build()"],
                          .line [.lit t!"if err != nil {"],
                          .line [.lit t!"return"],
                          .line [.lit t!"}"],
                          .line [.lit t!"}"]]
                        []]],
              .line [.lit t!"}"]]
            [
              .branch [t!".Type.IsMap"]
                [
                  .line [.lit t!"if b.", .print [t!"$fieldName"], .lit t!" != nil {"],
                  .branch [t!".Type.Element.IsScalar"]
                    [
                      .line [.lit t!"object.", .print [t!"$fieldName"], .lit t!" = make(",
                        .print [t!"$fieldType"], .lit t!")"],
                      .line [.lit t!"for k, v := range b.", .print [t!"$fieldName"], .lit t!" {"],
                      .line [.lit t!"object.", .print [t!"$fieldName"], .lit t!"[k] = v"],
                      .line [.lit t!"}"]]
                    [
                      .branch [t!".Type.Element.IsStruct"]
                        [
                          .line [.lit t!"object.", .print [t!"$fieldName"],
                            .lit t!"  = make(map[string]*", .print [t!"selectorType", t!"."],
                            .print [t!"objectName", t!".Type.Element"], .lit t!")"],
                          .line [.lit t!"for k, v := range b.", .print [t!"$fieldName"], .lit t!" {"],
                          .line [.lit t!"object.", .print [t!"$fieldName"],
                            .lit t!"[k], err = v.Build()"],
                          .line [.lit t!"if err != nil {"],
                          .line [.lit t!"return"],
                          .line [.lit t!"}"],
                          .line [.lit t!"}"]]
                        []],
                  .line [.lit t!"}"]]
                []]]]]

/-- The end of the method that builds an object. -/
def buildTail : List Line := [
  .line [.lit t!"return"],
  .line [.lit t!"}"]]

/-- The lines of the template of builders of objects. -/
def builderLines : List Line :=
  .set t!"$builderName" [t!"builderName", t!".Type"] ::
  .set t!"$builderCtor" [t!"builderCtor", t!".Type"] ::
  .set t!"$objectName" [t!"objectName", t!".Type"] ::
  (structureLines ++ (ctorLines ++ (identityLines ++ (emptyLines ++ ([.range [t!".Type.Attributes"] setterBody] ++
    (copyHead ++ ([.range [t!".Type.Attributes"] copyBody] ++ (copyTail ++ (buildHead ++
      ([.range [t!".Type.Attributes"] buildBody] ++ buildTail))))))))))

/-- The lines of the template of builders of lists, after the assignments. -/
def listBuilderBody : List Line := [
  .line [.lit t!"// ", .print [t!"$builderName"], .lit t!" contains the data and logic needed to build"],
  .line [.lit t!"// '", .print [t!".Type.Element.Name"], .lit t!"' objects."],
  .line [.lit t!"type  ", .print [t!"$builderName"], .lit t!" struct {"],
  .line [.lit t!"items []*", .print [t!"$elementBuilderName"]],
  .line [.lit t!"}"],
  .line [.lit t!"// ", .print [t!"$builderCtor"], .lit t!" creates a new builder of '",
    .print [t!".Type.Element.Name"], .lit t!"' objects."],
  .line [.lit t!"func ", .print [t!"$builderCtor"], .lit t!"() *", .print [t!"$builderName"],
    .lit t!" {"],
  .line [.lit t!"return new(", .print [t!"$builderName"], .lit t!")"],
  .line [.lit t!"}"],
  .line [.lit t!"// Items sets the items of the list."],
  .line [.lit t!"func (b *", .print [t!"$builderName"], .lit t!") Items(values ...*",
    .print [t!"$elementBuilderName"], .lit t!") *", .print [t!"$builderName"], .lit t!" {"],
  .line [.lit t!"b.items = make([]*", .print [t!"$elementBuilderName"], .lit t!", len(values))"],
  .line [.lit t!"copy(b.items, values)"],
  .line [.lit t!"return b"],
  .line [.lit t!"}"],
  .line [.lit t!"// Empty returns true if the list is empty."],
  .line [.lit t!"func (b *", .print [t!"$builderName"], .lit t!") Empty() bool {"],
  .line [.lit t!"return b == nil || len(b.items) == 0"],
  .line [.lit t!"}"],
  .line [.lit t!"// Copy copies the items of the given list into this builder, discarding any previous items."],
  .line [.lit t!"func (b *", .print [t!"$builderName"], .lit t!") Copy(list *",
    .print [t!"$objectName"], .lit t!") *", .print [t!"$builderName"], .lit t!" {"],
  .line [.lit t!"if list == nil || list.items == nil {"],
  .line [.lit t!"b.items = nil"],
  .line [.lit t!"} else {"],
  .line [.lit t!"b.items = make([]*", .print [t!"$elementBuilderName"], .lit t!", len(list.items))"],
  .line [.lit t!"for i, v := range list.items {"],
  .line [.lit t!"b.items[i] = ", .print [t!"$elementBuilderCtor"], .lit t!"().Copy(v)"],
  .line [.lit t!"}"],
  .line [.lit t!"}"],
  .line [.lit t!"return b"],
  .line [.lit t!"}"],
  .line [.lit t!"// Build creates a list of '", .print [t!".Type.Element.Name"],
    .lit t!"' objects using the"],
  .line [.lit t!"// configuration stored in the builder."],
  .line [.lit t!"func (b *", .print [t!"$builderName"], .lit t!") Build() (list *",
    .print [t!"$objectName"], .lit t!", err error) {"],
  .line [.lit t!"items := make([]*", .print [t!"$elementObjectName"], .lit t!", len(b.items))"],
  .line [.lit t!"for i, item := range b.items {"],
  .line [.lit t!"items[i], err = item.Build()"],
  .line [.lit t!"if err != nil {"],
  .line [.lit t!"return"],
  .line [.lit t!"}"],
  .line [.lit t!"}"],
  .line [.lit t!"list = new(", .print [t!"$objectName"], .lit t!")"],
  .line [.lit t!"list.items = items"],
  .line [.lit t!"return"],
  .line [.lit t!"}"]]

/-- The lines of the template of builders of lists. -/
def listBuilderLines : List Line :=
  .set t!"$objectName" [t!"objectName", t!".Type"] ::
  .set t!"$builderName" [t!"builderName", t!".Type"] ::
  .set t!"$builderCtor" [t!"builderCtor", t!".Type"] ::
  .set t!"$elementObjectName" [t!"objectName", t!".Type.Element"] ::
  .set t!"$elementBuilderName" [t!"builderName", t!".Type.Element"] ::
  .set t!"$elementBuilderCtor" [t!"builderCtor", t!".Type.Element"] ::
  listBuilderBody

set_option maxRecDepth 100000 in
theorem builder_lines : hasLines builderTemplate builderLines = true := by decide +kernel

set_option maxRecDepth 100000 in
theorem listBuilder_lines : hasLines listBuilderTemplate listBuilderLines = true := by decide +kernel

end Verif.BuildersCode
