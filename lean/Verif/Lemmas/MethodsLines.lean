import Verif.Lemmas.GoTemplate
import Verif.Model.MethodsCode

/-! The lines of the templates of the JSON support of resources. -/

namespace Verif.MethodsCode

open GoTemplate

/-- The line where the function that writes the request starts. -/
def writeHead : Line :=
  .line [.lit t!"func ", .print [t!"writeRequestFunc", t!".Method"], .lit t!"(request *",
    .print [t!"clientRequestName", t!".Method"], .lit t!", writer io.Writer) error {"]

/-- The line where the function that reads the response starts. -/
def readHead : Line :=
  .line [.lit t!"func ", .print [t!"readResponseFunc", t!".Method"], .lit t!"(response *",
    .print [t!"clientResponseName", t!".Method"], .lit t!", reader io.Reader) error {"]

/-- The lines that write a body with a function. -/
def marshalBodyLines : List Line := [
  .line [.lit t!"return ", .print [t!"marshalTypeFunc", t!".Body.Type"], .lit t!"(request.body, writer)"]]

/-- The lines that read a body with a function. -/
def unmarshalBodyLines : List Line := [
  .line [.lit t!"var err error"],
  .line [.lit t!"response.body, err = ", .print [t!"unmarshalTypeFunc", t!".Body.Type"], .lit t!"(reader)"],
  .line [.lit t!"return err"]]

/-- The lines for when there is no body. -/
def nilLines : List Line := [.line [.lit t!"return nil"]]

/-- The end of a function. -/
def closeLine : Line := .line [.lit t!"}"]

/-- The start of the loop that reads the fields. -/
def readStart : List Line := [
  .line [.lit t!"iterator, err := helpers.NewIterator(reader)"],
  .line [.lit t!"if err != nil {"],
  .line [.lit t!"return err"],
  .line [.lit t!"}"],
  .line [.lit t!"for {"],
  .line [.lit t!"field := iterator.ReadObject()"],
  .line [.lit t!"if field == \"\" {"],
  .line [.lit t!"break"],
  .line [.lit t!"}"],
  .line [.lit t!"switch field {"]]

/-- The end of the loop that reads the fields. -/
def readEnd : List Line := [
  .line [.lit t!"default:"],
  .line [.lit t!"iterator.ReadAny()"],
  .line [.lit t!"}"],
  .line [.lit t!"}"],
  .line [.lit t!"return iterator.Error"]]

/-- The lines of a parameter that pages can have. -/
def optionLines (w : Text) : List Line := [
  .branch [w] [.line [.print [t!"generateReadBodyParameter", t!"\"response\"", w]]] []]

/-- The lines of the other parameters of pages. -/
def otherLines : List Line := [
  .range [t!".Other"] [
    .branch [t!".Out"] [.line [.print [t!"generateReadBodyParameter", t!"\"response\"", t!"."]]] []]]

/-- The lines of the items of pages. -/
def itemLines : List Line := [
  .branch [t!"and", t!".Items.Type.IsList", t!".Items.Type.Element.IsScalar"]
    [.line [.lit t!"response.items = items"]]
    [.line [.lit t!"response.items = &", .print [t!"structName", t!".Items.Type"], .lit t!"{"],
      .line [.lit t!"items: items,"],
      .line [.lit t!"}"]]]

/-- The lines of the function that reads a page. -/
def pageLines : List Line :=
  readStart ++ (optionLines t!".Page" ++ (optionLines t!".Size" ++ (optionLines t!".Total" ++ (otherLines ++
    (.line [.lit t!"case \"items\":"] ::
      .line [.print [t!"generateReadValue", t!"\"items\"", t!".Items.Type", t!"false", t!".LinkOwner"]] ::
      (itemLines ++ readEnd))))))

/-- The lines of the template of methods that add and update. -/
def addLines : List Line :=
  writeHead :: (marshalBodyLines ++ closeLine :: readHead :: (unmarshalBodyLines ++ [closeLine]))

/-- The lines of the template of methods that delete. -/
def deleteLines : List Line := writeHead :: (nilLines ++ closeLine :: readHead :: (nilLines ++ [closeLine]))

/-- The lines of the template of methods that get. -/
def getLines : List Line := writeHead :: (nilLines ++ closeLine :: readHead :: (unmarshalBodyLines ++ [closeLine]))

/-- The lines of the template of methods that list. -/
def listLines : List Line := writeHead :: (nilLines ++ closeLine :: readHead :: (pageLines ++ [closeLine]))

/-- The lines that write a parameter with a function, if there is one. -/
def optionMarshalLines (w : Text) : List Line := [
  .branch [w]
    [.line [.lit t!"return ", .print [t!"marshalTypeFunc", w ++ t!".Type"], .lit t!"(request.",
      .print [t!"parameterFieldName", w], .lit t!", writer)"]]
    nilLines]

/-- The lines that read a parameter with a function, if there is one. -/
def optionUnmarshalLines (w : Text) : List Line := [
  .branch [w]
    [.line [.lit t!"var err error"],
      .line [.lit t!"response.", .print [t!"parameterFieldName", w], .lit t!", err = ",
        .print [t!"unmarshalTypeFunc", w ++ t!".Type"], .lit t!"(reader)"],
      .line [.lit t!"return err"]]
    nilLines]

/-- The lines of the template of `Post` methods. -/
def postLines : List Line :=
  writeHead :: (optionMarshalLines t!".Request" ++ closeLine :: readHead ::
    (optionUnmarshalLines t!".Response" ++ [closeLine]))

/-- The lines of the template of methods that search. -/
def searchLines : List Line :=
  writeHead :: (optionMarshalLines t!".Body" ++ closeLine :: readHead :: (pageLines ++ [closeLine]))

/-- The start of the code that writes the fields. -/
def writeStart : List Line := [
  .line [.lit t!"count := 0"],
  .line [.lit t!"stream := helpers.NewStream(writer)"],
  .line [.lit t!"stream.WriteObjectStart()"]]

/-- The end of the code that writes the fields. -/
def writeEnd : List Line := [
  .line [.lit t!"stream.WriteObjectEnd()"],
  .line [.lit t!"err := stream.Flush()"],
  .line [.lit t!"if err != nil {"],
  .line [.lit t!"return err"],
  .line [.lit t!"}"],
  .line [.lit t!"return stream.Error"]]

/-- The lines that write the parameters of an action. -/
def actionWriteLines : List Line := [
  .branch [t!"$requestBodyParameters"]
    (writeStart ++ (.range [t!"$requestBodyParameters"] [
      .line [.print [t!"generateWriteBodyParameter", t!"\"request\"", t!"."]]] :: writeEnd))
    nilLines]

/-- The lines that read the parameters of an action. -/
def actionReadLines : List Line := [
  .branch [t!"$responseBodyParameters"]
    (readStart ++ (.range [t!"$responseBodyParameters"] [
      .line [.print [t!"generateReadBodyParameter", t!"\"response\"", t!"."]]] :: readEnd))
    nilLines]

/-- The lines of the template of actions. -/
def actionLines : List Line :=
  .set t!"$requestBodyParameters" [t!"requestBodyParameters", t!".Method"] ::
  .set t!"$responseBodyParameters" [t!"responseBodyParameters", t!".Method"] ::
  writeHead :: (actionWriteLines ++ closeLine :: readHead :: (actionReadLines ++ [closeLine]))

/-- The lines of the template of the code that reads a parameter. -/
def readParameterLines : List Line := [
  .line [.lit t!"case \"", .print [t!".Tag"], .lit t!"\":"],
  .line [.print [t!"generateReadValue", t!"\"value\"", t!".Type", t!"false", t!".LinkOwner"]],
  .branch [t!".Type.IsScalar"]
    [.line [.print [t!".Object"], .lit t!".", .print [t!".Field"], .lit t!" = &value"]]
    [.line [.print [t!".Object"], .lit t!".", .print [t!".Field"], .lit t!" = value"]]]

/-- The lines of the template of the code that writes a parameter. -/
def writeParameterLines : List Line := [
  .line [.lit t!"if ", .print [t!".Object"], .lit t!".", .print [t!".Field"], .lit t!" != nil {"],
  .line [.lit t!"if count > 0 {"],
  .line [.lit t!"stream.WriteMore()"],
  .line [.lit t!"}"],
  .line [.lit t!"stream.WriteObjectField(\"", .print [t!".Tag"], .lit t!"\")"],
  .line [.print [t!"generateWriteValue", t!".Value", t!".Type", t!"false", t!".LinkOwner"]],
  .line [.lit t!"count++"],
  .line [.lit t!"}"]]

set_option maxRecDepth 100000 in
theorem add_lines : hasLines addTemplate addLines = true := by decide +kernel

set_option maxRecDepth 100000 in
theorem delete_lines : hasLines deleteTemplate deleteLines = true := by decide +kernel

set_option maxRecDepth 100000 in
theorem get_lines : hasLines getTemplate getLines = true := by decide +kernel

set_option maxRecDepth 100000 in
theorem list_lines : hasLines listTemplate listLines = true := by decide +kernel

set_option maxRecDepth 100000 in
theorem post_lines : hasLines postTemplate postLines = true := by decide +kernel

set_option maxRecDepth 100000 in
theorem search_lines : hasLines searchTemplate searchLines = true := by decide +kernel

set_option maxRecDepth 100000 in
theorem update_lines : hasLines updateTemplate addLines = true := by decide +kernel

set_option maxRecDepth 100000 in
theorem action_lines : hasLines actionTemplate actionLines = true := by decide +kernel

set_option maxRecDepth 100000 in
theorem readParameter_lines : hasLines readParameterTemplate readParameterLines = true := by decide +kernel

set_option maxRecDepth 100000 in
theorem writeParameter_lines : hasLines writeParameterTemplate writeParameterLines = true := by decide +kernel

end Verif.MethodsCode
