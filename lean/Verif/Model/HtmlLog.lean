import Verif.Model.JsonLog

/-!
# HTML log (Debug/HTMLLogger.h)

As in `Model/JsonLog`: a text is a list of characters, opening a file is assumed to succeed, `int groupIndex` and
`int line` are natural numbers.
-/

namespace GTMesh.HtmlLog
open JsonLog (Handle LVal LVals Members print)

/-- The text up to the first script, HTMLLogger.h:155-167 -/
def documentBody : String := r##"<html>
<head>
</head>
<body>
<input type="number" id ="selected_line" value="-1"/>
<table id="selector">
<tr><button onclick="addFilter() " >add filter</button></tr>
</table><br/>
<button onclick="copyData(); showData() ">show all data</button>
<button onclick="filterData(); showData() ">filter</button>
<hr/>
<div id = "listDiv"></div>
<script"##

/-- The first script and the text in front of the data, HTMLLogger.h:167-279 -/
def documentScript : String := r##" type="text/javascript">
var data;
var dataToShow = new Array();
var numberOfSelectors = 0;
var apliedRule;
function copyData() {
    dataToShow = data;
}

function addFilter() {
    var sel = document.getElementById("selector");

    sel.innerHTML += '<tr><td>select: <select id ="sO' + numberOfSelectors.toString(10) + '"><option>row</option><option>group</option></select></td><td>var name:<input id ="vN' + numberOfSelectors.toString(10) + '" type="text"/></td><td><select id ="cO' + numberOfSelectors.toString(10) + '"><option>less</option><option>greater</option><option>equal</option><option>between</option></select></td><td><input type="number" step="1e-6" id ="firstVal' + numberOfSelectors.toString(10) + '" value="0"/></td><td> and: <input type="number" step="1e-6" id ="secondVal' + numberOfSelectors.toString(10) + '" value="0"/></td></tr>';

    numberOfSelectors++;
}

function checkData(varData) {
    if (numberOfSelectors > 0){
        for (var i = 0; i < numberOfSelectors; i++) {
            var selectOption = document.getElementById("sO" + i.toString(10)).selectedIndex;
            var varName = document.getElementById("vN" + i.toString(10)).value;
            var option = document.getElementById("cO" + i.toString(10)).selectedIndex;
            var val1 = document.getElementById("firstVal" + i.toString(10)).value;
            var val2 = document.getElementById("secondVal" + i.toString(10)).value;

            if (varData[3] == varName || varData[3] == "") {
                switch (option){

                case 0: {if(varData[4] < val1) {apliedRule = selectOption; return true;}} break;
                case 1: {if(varData[4] > val1) {apliedRule = selectOption; return true;}} break;
                case 2: {if(varData[4] == val1) {apliedRule = selectOption; return true;}} break;
                case 3: {if(varData[4] > val1 && varData[4] < val2) {apliedRule = selectOption; return true;}} break;

                }
            }
        }
    } else {
        return true;
    }

    return false;
}

function filterData() {

    dataToShow = [];

    var restrLine = document.getElementById("selected_line").value;


    for(var i = 0; i < data.length; i++){
        if (data[i][1] == restrLine || restrLine < 0) {

            if (checkData(data[i])){
                switch(apliedRule){
                    case 0 : dataToShow.push(data[i]); break;
                    case 1 : {
                        var index = i;
                        var groupIndex = data[i][0];
                        for(var j = i; j >= 0 && data[j][0] == groupIndex; j--){
                            index = j;
                        }
                        while(index < data.length && data[index][0] == groupIndex) {
                            dataToShow.push(data[index]);
                            index++;
                        }
                        i = index - 1;
                    } break;
                }
            }
        }
    }
}


function showData(){
    lD = document.getElementById("listDiv");

    var tmp = "<table style=\"position: absolute; width:90%; left:5%\"><tr style=\"background-color:lightgrey\"><th>GroupIndex</th><th>Line</th><th>File</th><th>var name</th><th>value</th></tr>";
    var odd = false;
    var oddGroup = false;
    if (dataToShow.length > 0) {
        var curGroup = dataToShow[0][0];
    }
    for(var i = 0; i < dataToShow.length; i++){

        if (curGroup != dataToShow[i][0]) {
            curGroup = dataToShow[i][0];
            oddGroup = !oddGroup;
        }

        if (odd) {
            tmp += "<tr style=\"background-color:" + (oddGroup ? "#ccffcc" : "#ffeecc") + "\"><td>";
            odd = false;
        } else {
            tmp += "<tr style=\"background-color:" + (oddGroup ? "#66ff66" : "#ffcc66") + "\"><td>";
            odd = true;
        }

        tmp += dataToShow[i][0] + "</td><td>" + dataToShow[i][1] + "</td><td>" + dataToShow[i][2] + "</td><td>" + dataToShow[i][3] + "</td><td>" + JSON.stringify(dataToShow[i][4]) + "</td></tr>";

    }
    tmp += "</table>";
    lD.innerHTML = tmp;

}

</script>


<script type = "text/javascript">

"##

/-- The text in front of the data, HTMLLogger.h:155-279 -/
def documentHead : String := documentBody ++ documentScript

/-- `data = [`, HTMLLogger.h:280 -/
def dataText : List Char := ['d', 'a', 't', 'a', ' ', '=', ' ', '[']

/-- `];`, HTMLLogger.h:286 -/
def endText : List Char := [']', ';']

/-- The rest of the text behind the data, HTMLLogger.h:286-292 -/
def documentTail : String := "\ncopyData();\nshowData();\n</script>\n</body>\n</html>\n"

/-- `HtmlLogger`, HTMLLogger.h:15-18, and the files that were closed. -/
structure Logger where
  logFileName : List Char := []
  logFile : Handle := .null
  groupIndex : Nat := 0
  /-- the closed files, the latest first -/
  closed : List (List Char × List Char) := []
  deriving DecidableEq, Repr

/-- `HtmlLogger(const char* fileName)`, HTMLLogger.h:31-34 -/
def Logger.new (fileName : List Char) : Logger := { logFileName := fileName }

/-- What `writeScript` writes, HTMLLogger.h:153-281 -/
def scriptText : List Char := documentHead.toList ++ dataText

/-- `create`, HTMLLogger.h:45-54. A stream that is open is closed as it is. -/
def create (fileName : List Char) (l : Logger) : Res Logger :=
  match l.logFile with
  | .null => .ok { l with logFile := .opened fileName scriptText }
  | .opened n out => .ok { l with logFile := .opened fileName scriptText, closed := (n, out) :: l.closed }
  | .dangling => .ub

/-- `destroy`, HTMLLogger.h:56-62, with `writeEndScritpt`, HTMLLogger.h:283-293; `logFile` is not reset after `delete`. -/
def destroy (l : Logger) : Res Logger :=
  match l.logFile with
  | .null => .ok l
  | .opened n out => .ok { l with logFile := .dangling, closed := (n, out ++ endText ++ documentTail.toList) :: l.closed }
  | .dangling => .ub

/-- `if (!logFile) create(logFileName.c_str());` -/
def ensure (l : Logger) : Res Logger :=
  match l.logFile with
  | .null => create l.logFileName l
  | _ => .ok l

/-- `(*logFile) << text` -/
def put (text : List Char) (l : Logger) : Res Logger :=
  match l.logFile with
  | .opened n out => .ok { l with logFile := .opened n (out ++ text) }
  | _ => .ub

/-- `writeVar(name, value, ...)`, HTMLLogger.h:66-86; a variable is its name and the characters that `<< value` puts. -/
def writeVars : List (List Char × List Char) → Logger → Res Logger
  | [], l => .ok l
  | x :: xs, l => (ensure l).bind fun l => (put (x.1 ++ [',', ' '] ++ x.2) l).bind (writeVars xs)

/-- The row of a variable, HTMLLogger.h:95-97, 108-110 -/
def row (group line : Nat) (cppFile name : List Char) (v : LVal) : List Char :=
  '[' :: decimal group ++ [',', ' '] ++ decimal line ++ [',', ' ', '\''] ++ cppFile ++ ['\'', ',', ' ', '\''] ++ name ++ ['\'', ',', ' '] ++
    print v ++ [']', ',', '\n']

/-- `writeVar(line, cppFile, name, value, rest...)` with a `std::string`, HTMLLogger.h:89-99; the last variable,
HTMLLogger.h:102-113. -/
def writeLocated (line : Nat) (cppFile name : List Char) (v : LVal) : List (List Char × LVal) → Logger → Res Logger
  | [], l => (ensure l).bind fun l => (put (row l.groupIndex line cppFile name v) l).bind fun l =>
      .ok { l with groupIndex := l.groupIndex + 1 }
  | (n', v') :: rest, l => (ensure l).bind fun l =>
      (put (row l.groupIndex line cppFile name v) l).bind fun l => writeLocated line cppFile n' v' rest l

/-- The loop that doubles the backslashes of the path, HTMLLogger.h:119-128, 135-144 -/
def escapePath : List Char → List Char
  | [] => []
  | c :: cs => if c = '\\' then '\\' :: '\\' :: escapePath cs else c :: escapePath cs

/-- A call of `writeVar`. -/
inductive Call where
  /-- `writeVar(name, value, ...)`: at least one variable -/
  | vars (x : List Char × List Char) (rest : List (List Char × List Char))
  /-- `writeVar(line, path, name, value, ...)` with a `const char*` (`DBGVAR_HTML`), HTMLLogger.h:116-146 -/
  | at_ (line : Nat) (path name : List Char) (v : LVal) (rest : List (List Char × LVal))

/-- One call. -/
def call : Call → Logger → Res Logger
  | .vars x rest, l => writeVars (x :: rest) l
  | .at_ line path n v rest, l => writeLocated line (escapePath path) n v rest l

/-- A sequence of calls. -/
def calls : List Call → Logger → Res Logger
  | [], l => .ok l
  | c :: cs, l => (call c l).bind (calls cs)

/-- The life of a logger: constructor, calls, destructor (HTMLLogger.h:36-38). -/
def session (fileName : List Char) (cs : List Call) : Res Logger := (calls cs (Logger.new fileName)).bind destroy

end GTMesh.HtmlLog
