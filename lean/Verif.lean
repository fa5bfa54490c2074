import Verif.Base
import Verif.BaseLemmas
import Verif.Spec
import Verif.Norms
import Verif.ENautilus.Model
import Verif.ENautilus.Lemmas
import Verif.ENautilus.ExampleData
import Verif.ENautilus.Props
import Verif.ENautilus.Props2
import Verif.ENautilus.Props3
import Verif.ENautilus.History
import Verif.ENautilus.Validation
import Verif.Navigator.Model
import Verif.Navigator.Lemmas
import Verif.Navigator.ExampleData
import Verif.Navigator.Props
import Verif.Navigator.Props2
import Verif.Navigator.Props3
import Verif.Navigator.Props4
import Verif.Navigator.Validation
import Verif.Constructors.Model
import Verif.Constructors.Props
import Verif.Nimbus.Model
import Verif.Nimbus.Lemmas
import Verif.Nimbus.Step
import Verif.Nimbus.ExampleData
import Verif.Nimbus.Props
import Verif.Nimbus.Props2
import Verif.Nimbus.Props3
import Verif.Nimbus.Validation
import Verif.Exec
import Verif.Asf
import Verif.Nautilus.Model
import Verif.Nautilus.Lemmas
import Verif.Nautilus.Errors
import Verif.Nautilus.History
import Verif.Nautilus.Total
import Verif.Nautilus.ExampleData
import Verif.Nautilus.Props
import Verif.Nautilus.Props2
import Verif.Nautilus.Validation
import Verif.NautilusV2.Validation
import Verif.NautilusV2.Model
import Verif.NautilusV2.Doi
import Verif.NautilusV2.Lemmas
import Verif.NautilusV2.Errors
import Verif.NautilusV2.History
import Verif.NautilusV2.Total
import Verif.NautilusV2.ExampleData
import Verif.NautilusV2.Props
import Verif.NautilusV2.Props2
import Verif.Rpm.Model
import Verif.Rpm.Lemmas
import Verif.Rpm.ExampleData
import Verif.Rpm.Props
import Verif.ParetoNav.Model
import Verif.ParetoNav.Lemmas
import Verif.ParetoNav.Lp
import Verif.ParetoNav.ExampleData
import Verif.ParetoNav.Props
import Verif.ParetoNav.Props2
import Verif.Paint.Model
import Verif.Paint.Lemmas
import Verif.Paint.Props
import Verif.Solvers.Model
import Verif.Solvers.Lemmas
import Verif.Solvers.Props
import Verif.Solvers.Props2
import Verif.Rpm.Validation
import Verif.ParetoNav.Validation
import Verif.Nimbus.Props4
import Verif.Rpm.Robust
import Verif.Nimbus.Robust
import Verif.Navigator.Robust
import Verif.ParetoNav.Robust
import Verif.Nautilus.Robust
import Verif.NautilusV2.Robust
import Verif.Task
import Verif.Nautilus.Task
import Verif.NautilusV2.Task
import Verif.Rpm.Task
import Verif.ENautilus.Distances
import Verif.ParetoNav.Task
import Verif.ParetoNav.Approach
import Verif.Rpm.Attain
import Verif.Solvers.Nadir
import Verif.Refusals
import Verif.ENautilus.Units
import Verif.ENautilus.Units2
import Verif.Navigator.Fresh
import Verif.Navigator.Monotone
import Verif.Rounding
import Verif.ENautilus.Rounded
import Verif.ENautilus.RoundedProps
import Verif.Navigator.Rounded
import Verif.Navigator.RoundedLemmas
import Verif.Navigator.RoundedProps
import Verif.Solvers.Coverage
import Verif.Navigator.Recast
import Verif.Navigator.Units
import Verif.Nautilus.Rounded
import Verif.Nautilus.RoundedLemmas
import Verif.Nautilus.RoundedProps
import Verif.Nautilus.Percent
import Verif.Nautilus.RoundedOrder
import Verif.Nautilus.Recast
import Verif.Nautilus.Units
import Verif.Rpm.Recast
import Verif.Rpm.Units
import Verif.NautilusV2.Recast
import Verif.NautilusV2.Units
import Verif.Directions
import Verif.NautilusV2.Rounded
import Verif.NautilusV2.RoundedDoi
import Verif.NautilusV2.RoundedLemmas
import Verif.NautilusV2.RoundedProps
import Verif.NautilusV2.RoundedOrder
import Verif.Nimbus.Plot
import Verif.Nimbus.PlotProps
import Verif.Nimbus.Bounds
import Verif.Nimbus.Recast
import Verif.ParetoNav.Recast
import Verif.Solvers.Rounded
import Verif.ENautilus.Order
import Verif.Solvers.Special
import Verif.Solvers.Recast
import Verif.Nimbus.Numbers
import Verif.Rpm.Monotone
import Verif.Navigator.Rows
import Verif.ParetoNav.Special
import Verif.Solvers.PayoffSpecial
import Verif.Nimbus.Rounded
import Verif.Rpm.Rounded
import Verif.Approx
import Verif.ParetoNav.Rounded
import Verif.Paint.More
import Verif.Finish
import Verif.Rpm.Finish
import Verif.Navigator.Finish
import Verif.Nautilus.Finish
import Verif.NautilusV2.Finish
import Verif.ENautilus.Finish
import Verif.ParetoNav.Finish
import Verif.Nimbus.Relax
import Verif.Nautilus.Monotone
import Verif.NautilusV2.Monotone
import Verif.ParetoNav.Monotone
import Verif.Nimbus.Demand
import Verif.Nimbus.Rows
import Verif.ENautilus.Rows
import Verif.Solvers.Finer
import Verif.Pipeline
import Verif.ParetoNav.Rows
import Verif.Navigator.Reach
import Verif.ENautilus.Reach
import Verif.Nimbus.Reach
import Verif.Nautilus.Reach
import Verif.NautilusV2.Reach
import Verif.Rpm.Reach
import Verif.PipelineN
import Verif.PipelineR
import Verif.PipelineReach
import Verif.PipelineNimbus
import Verif.Nimbus.Near
import Verif.Nimbus.Table
import Verif.Rpm.Near
import Verif.Nautilus.Near
import Verif.NautilusV2.Near
import Verif.PipelineNNear
