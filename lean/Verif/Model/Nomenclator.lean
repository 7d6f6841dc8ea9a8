import Verif.Model.Names

/-! # Package `nomenclator`

The names of `pkg/nomenclator/names.go:23-129` that the modelled code uses. -/

namespace Verif.Nom

/-- pkg/nomenclator/names.go:27 -/
def add : Name := parseUsingCase t!"Add"
/-- pkg/nomenclator/names.go:28 -/
def asyncDelete : Name := parseUsingCase t!"AsyncDelete"
/-- pkg/nomenclator/names.go:29 -/
def asyncUpdate : Name := parseUsingCase t!"AsyncUpdate"
/-- pkg/nomenclator/names.go:32 -/
def body : Name := parseUsingCase t!"Body"
/-- pkg/nomenclator/names.go:33 -/
def boolean : Name := parseUsingCase t!"Boolean"
/-- pkg/nomenclator/names.go:34 -/
def builder : Name := parseUsingCase t!"Builder"
/-- pkg/nomenclator/names.go:37 -/
def client : Name := parseUsingCase t!"Client"
/-- pkg/nomenclator/names.go:42 -/
def date : Name := parseUsingCase t!"Date"
/-- pkg/nomenclator/names.go:43 -/
def delete : Name := parseUsingCase t!"Delete"
/-- pkg/nomenclator/names.go:48 -/
def errors : Name := parseUsingCase t!"Errors"
/-- pkg/nomenclator/names.go:51 -/
def float : Name := parseUsingCase t!"Float"
/-- pkg/nomenclator/names.go:54 -/
def get : Name := parseUsingCase t!"Get"
/-- pkg/nomenclator/names.go:59 -/
def helpers : Name := parseUsingCase t!"Helpers"
/-- pkg/nomenclator/names.go:64 -/
def integer : Name := parseUsingCase t!"Integer"
/-- pkg/nomenclator/names.go:65 -/
def interface : Name := parseUsingCase t!"Interface"
/-- pkg/nomenclator/names.go:66 -/
def items : Name := parseUsingCase t!"Items"
/-- pkg/nomenclator/names.go:76 -/
def list : Name := parseUsingCase t!"List"
/-- pkg/nomenclator/names.go:77 -/
def long : Name := parseUsingCase t!"Long"
/-- pkg/nomenclator/names.go:80 -/
def map : Name := parseUsingCase t!"Map"
/-- pkg/nomenclator/names.go:84 -/
def metrics : Name := parseUsingCase t!"Metrics"
/-- pkg/nomenclator/names.go:90 -/
def page : Name := parseUsingCase t!"Page"
/-- pkg/nomenclator/names.go:94 -/
def post : Name := parseUsingCase t!"Post"
/-- pkg/nomenclator/names.go:103 -/
def root : Name := parseUsingCase t!"Root"
/-- pkg/nomenclator/names.go:106 -/
def search : Name := parseUsingCase t!"Search"
/-- pkg/nomenclator/names.go:111 -/
def size : Name := parseUsingCase t!"Size"
/-- pkg/nomenclator/names.go:114 -/
def string : Name := parseUsingCase t!"String"
/-- pkg/nomenclator/names.go:117 -/
def total : Name := parseUsingCase t!"Total"
/-- pkg/nomenclator/names.go:124 -/
def update : Name := parseUsingCase t!"Update"
/-- pkg/nomenclator/names.go:41 -/
def data : Name := parseUsingCase t!"Data"
/-- pkg/nomenclator/names.go:63 -/
def index : Name := parseUsingCase t!"Index"
/-- pkg/nomenclator/names.go:69 -/
def json : Name := parseUsingCase t!"JSON"
/-- pkg/nomenclator/names.go:82 -/
def metadata : Name := parseUsingCase t!"Metadata"
/-- pkg/nomenclator/names.go:92 -/
def path : Name := parseUsingCase t!"Path"
/-- pkg/nomenclator/names.go:97 -/
def read : Name := parseUsingCase t!"Read"
/-- pkg/nomenclator/names.go:98 -/
def reader : Name := parseUsingCase t!"Reader"
/-- pkg/nomenclator/names.go:100 -/
def request : Name := parseUsingCase t!"Request"
/-- pkg/nomenclator/names.go:101 -/
def resource : Name := parseUsingCase t!"Resource"
/-- pkg/nomenclator/names.go:102 -/
def response : Name := parseUsingCase t!"Response"
/-- pkg/nomenclator/names.go:118 -/
def tree : Name := parseUsingCase t!"Tree"
/-- pkg/nomenclator/names.go:119 -/
def typ : Name := parseUsingCase t!"Type"
/-- pkg/nomenclator/names.go:128 -/
def write : Name := parseUsingCase t!"Write"

end Verif.Nom
